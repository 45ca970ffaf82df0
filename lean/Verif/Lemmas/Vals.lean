import Verif.Lemmas.Nested
/-!
# The values of one attribute, in document order
-/

namespace Ramrod

mutual
/-- The values of the attribute `k`, in document order. -/
def Node.vals (k : QName) : Node → List String
  | .elem e ks => (e.get? k).toList ++ Node.valss k ks
  | .other _ _ => []
/-- `vals` of a list of nodes. -/
def Node.valss (k : QName) : List Node → List String
  | [] => []
  | n :: ns => Node.vals k n ++ Node.valss k ns
end

/-! ## Pointwise changes -/

mutual
theorem rel_vals {P : Elem → Elem → Prop} {k : QName} (hP : ∀ e e', P e e' → e'.get? k = e.get? k) : ∀ {a b : Node},
    Node.Rel P a b → b.vals k = a.vals k
  | .elem _ _, .elem _ _, h => by
    simp only [Node.Rel] at h
    simp only [Node.vals]
    rw [hP _ _ h.1, rels_valss hP h.2]
  | .other _ _, .other _ _, _ => by simp [Node.vals]
  | .elem _ _, .other _ _, h => by simp only [Node.Rel] at h
  | .other _ _, .elem _ _, h => by simp only [Node.Rel] at h
theorem rels_valss {P : Elem → Elem → Prop} {k : QName} (hP : ∀ e e', P e e' → e'.get? k = e.get? k) : ∀ {a b : List Node},
    Node.Rels P a b → Node.valss k b = Node.valss k a
  | [], [], _ => rfl
  | _ :: _, _ :: _, h => by
    simp only [Node.Rels] at h
    simp only [Node.valss]
    rw [rel_vals hP h.1, rels_valss hP h.2]
  | [], _ :: _, h => by simp only [Node.Rels] at h
  | _ :: _, [], h => by simp only [Node.Rels] at h
end

theorem rel_node_vals {P : Elem → Elem → Prop} {k : QName} (hP : ∀ e e', P e e' → e'.get? k = e.get? k) {c c' : Ctx}
    (he : P c.e c'.e) (hk : Node.Rels P c.kids c'.kids) : c'.node.vals k = c.node.vals k := by
  simp only [Ctx.node, Node.vals]
  rw [hP _ _ he, rels_valss hP hk]

/-! ## Replacements -/

mutual
theorem vals_substCtx {k : QName} {R : Ctx → Option Node} {pos : Pos} {env : NsMap} {anc : List QName} : ∀ (t : Node),
    (∀ c ∈ t.walk pos env anc, ∀ n, R c = some n → n.vals k = c.node.vals k) →
    (t.substCtx R pos env anc).vals k = t.vals k
  | .other _ _, _ => by simp [Node.substCtx]
  | .elem e ks, h => by
    simp only [Node.substCtx]
    split
    · next n hn => exact h ⟨pos, e.decls ++ env, anc, e, ks⟩ (by simp [Node.walk]) n hn
    · simp only [Node.vals]
      rw [valss_substCtxs ks (fun c hc => h c (by simp [Node.walk, hc]))]
theorem valss_substCtxs {k : QName} {R : Ctx → Option Node} {pos : Pos} {i : Nat} {env : NsMap} {anc : List QName} :
    ∀ (ks : List Node), (∀ c ∈ Node.walks pos i env anc ks, ∀ n, R c = some n → n.vals k = c.node.vals k) →
    Node.valss k (Node.substCtxs R pos i env anc ks) = Node.valss k ks
  | [], _ => by simp [Node.substCtxs]
  | t :: ks, h => by
    simp only [Node.substCtxs, Node.valss]
    rw [vals_substCtx t (fun c hc => h c (by simp [Node.walks, hc])),
      valss_substCtxs ks (fun c hc => h c (by simp [Node.walks, hc]))]
end

/-- The new nodes have the values of the old ones. -/
def KeepsVals (k : QName) (Sel : Ctx → Prop) (Q : Ctx → Node → Prop) (t : Node) : Prop :=
  ∀ c ∈ t.elems, ∀ n, Sel c → Q c n → n.vals k = c.node.vals k

theorem Replaced.select {Sel : Ctx → Prop} {t : Node} {R : Ctx → Option Node} {Q : Ctx → Node → Prop}
    (h1 : ∀ c ∈ t.elems, Sel c → ∃ n, R c = some n ∧ Q c n) (h2 : ∀ c ∈ t.elems, ¬ Sel c → R c = Option.none) {c : Ctx}
    (hc : c ∈ t.elems) {n : Node} (hn : (if c.anc.isEmpty then Option.none else R c) = some n) : c.anc ≠ [] ∧ Sel c ∧ Q c n := by
  split at hn
  · cases hn
  · next ha =>
    refine ⟨by simpa using ha, ?_⟩
    rcases Classical.em (Sel c) with hs | hs
    · obtain ⟨m, h3, h4⟩ := h1 c hc hs
      rw [h3] at hn
      cases hn
      exact ⟨hs, h4⟩
    · rw [h2 c hc hs] at hn; cases hn

theorem Replaced.vals {Sel : Ctx → Prop} {Q : Ctx → Node → Prop} {t t' : Node} {k : QName} (h : Replaced Sel Q t t')
    (hq : KeepsVals k Sel Q t) : t'.vals k = t.vals k := by
  obtain ⟨R, h1, h2, rfl⟩ := h
  refine vals_substCtx t (fun c hc n hn => ?_)
  obtain ⟨_, hs, hq'⟩ := Replaced.select h1 h2 hc hn
  exact hq c hc n hs hq'

/-- The elements after a replacement: an old one with the same values in it, or part of a new node. -/
theorem Replaced.cases {Sel : Ctx → Prop} {Q : Ctx → Node → Prop} {t t' : Node} (h : Replaced Sel Q t t') {c' : Ctx}
    (hc : c' ∈ t'.elems) :
    (∃ c ∈ t.elems, ∃ R, c' = { c with kids := Node.substCtxs R c.pos 0 c.env (c.e.tag :: c.anc) c.kids } ∧
      (∀ d ∈ t.elems, ∀ n, R d = some n → Sel d ∧ Q d n) ∧
      (∀ d ∈ Node.walks c.pos 0 c.env (c.e.tag :: c.anc) c.kids, d ∈ t.elems)) ∨
    (∃ c ∈ t.elems, c.anc ≠ [] ∧ Sel c ∧ ∃ n env0, Q c n ∧ c' ∈ n.walk c.pos env0 c.anc) := by
  obtain ⟨R, h1, h2, rfl⟩ := h
  rcases mem_walk_substCtx t c' hc with ⟨c, hm, _, rfl⟩ | ⟨c, hm, n, env0, hn, _, hw⟩
  · refine Or.inl ⟨c, hm, _, rfl, fun d hd n hn => ?_, fun d hd => elems_below hm hd⟩
    exact (Replaced.select h1 h2 hd hn).2
  · obtain ⟨h3, h4, h5⟩ := Replaced.select h1 h2 hm hn
    exact Or.inr ⟨c, hm, h3, h4, n, env0, h5, hw⟩

/-- The elements after a replacement that keeps the values. -/
theorem Replaced.vals_elems {Sel : Ctx → Prop} {Q : Ctx → Node → Prop} {t t' : Node} {k : QName} (h : Replaced Sel Q t t')
    (hq : KeepsVals k Sel Q t) {c' : Ctx} (hc : c' ∈ t'.elems) :
    (∃ c ∈ t.elems, c'.e = c.e ∧ c'.anc = c.anc ∧ Node.valss k c'.kids = Node.valss k c.kids) ∨
    (∃ c ∈ t.elems, c.anc ≠ [] ∧ Sel c ∧ ∃ n env0, Q c n ∧ c' ∈ n.walk c.pos env0 c.anc) := by
  rcases h.cases hc with ⟨c, hm, R, rfl, h1, h2⟩ | H
  · refine Or.inl ⟨c, hm, rfl, rfl, valss_substCtxs c.kids (fun d hd n hn => ?_)⟩
    obtain ⟨h3, h4⟩ := h1 d (h2 d hd) n hn
    exact hq d (h2 d hd) n h3 h4
  · exact Or.inr H

/-! ## Removals -/

mutual
theorem vals_none {k : QName} : ∀ {t : Node}, t.vals k = [] ↔ t.All (fun e => e.get? k = none)
  | .other _ _ => by simp [Node.vals, Node.All]
  | .elem e ks => by
    simp only [Node.vals, Node.All, List.append_eq_nil_iff, Option.toList_eq_nil_iff]
    rw [valss_none]
theorem valss_none {k : QName} : ∀ {ks : List Node}, Node.valss k ks = [] ↔ Node.Alls (fun e => e.get? k = none) ks
  | [] => by simp [Node.valss, Node.Alls]
  | t :: ks => by
    simp only [Node.valss, Node.Alls, List.append_eq_nil_iff]
    rw [vals_none, valss_none]
end

mutual
theorem vals_pruneCtx {k : QName} {S : Ctx → Bool} {pos : Pos} {env : NsMap} {anc : List QName} : ∀ (t : Node),
    (∀ c ∈ t.walk pos env anc, S c = true → c.node.vals k = []) → (t.pruneCtx S pos env anc).vals k = t.vals k
  | .other _ _, _ => by simp [Node.pruneCtx]
  | .elem e ks, h => by
    simp only [Node.pruneCtx, Node.vals]
    rw [valss_pruneCtxs ks (fun c hc => h c (by simp [Node.walk, hc]))]
theorem valss_pruneCtxs {k : QName} {S : Ctx → Bool} {pos : Pos} {i : Nat} {env : NsMap} {anc : List QName} : ∀ (ks : List Node),
    (∀ c ∈ Node.walks pos i env anc ks, S c = true → c.node.vals k = []) →
    Node.valss k (Node.pruneCtxs S pos i env anc ks) = Node.valss k ks
  | [], _ => by simp [Node.pruneCtxs]
  | .other c t :: ks, h => by
    simp only [Node.pruneCtxs, Node.valss]
    rw [valss_pruneCtxs ks (fun c hc => h c (by simp [Node.walks, hc]))]
  | .elem e es :: ks, h => by
    have hr := valss_pruneCtxs (k := k) (S := S) (pos := pos) (i := i + 1) (env := env) (anc := anc) ks
      (fun c hc => h c (by simp [Node.walks, hc]))
    simp only [Node.pruneCtxs]
    split
    · next hs =>
      have h0 := h ⟨i :: pos, e.decls ++ env, anc, e, es⟩ (by simp [Node.walks, Node.walk]) hs
      simp only [Ctx.node] at h0
      rw [hr]
      simp only [Node.valss, h0, List.nil_append]
    · simp only [Node.valss]
      rw [hr, vals_pruneCtx (.elem e es) (fun c hc => h c (by simp only [Node.walks, List.mem_append]; exact Or.inl hc))]
end

end Ramrod

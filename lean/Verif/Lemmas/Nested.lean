import Verif.Lemmas.Fields
/-!
# Names inside names, through the passes
-/

namespace Ramrod

mutual
/-- No element named `Y` is inside an element named `X`. -/
def Node.NoIn (X Y : QName) : Node → Prop
  | .elem e ks => (e.tag = X → Node.Alls (fun e => e.tag ≠ Y) ks) ∧ Node.NoIns X Y ks
  | .other _ _ => True
/-- The same for child nodes. -/
def Node.NoIns (X Y : QName) : List Node → Prop
  | [] => True
  | k :: ks => k.NoIn X Y ∧ Node.NoIns X Y ks
end

mutual
theorem noIn_walk {X Y : QName} (pos : Pos) (env : NsMap) (anc : List QName) : ∀ t : Node,
    t.NoIn X Y ↔ ∀ c ∈ t.walk pos env anc, c.e.tag = X → Node.Alls (fun e => e.tag ≠ Y) c.kids
  | .other _ _ => by simp [Node.NoIn, Node.walk]
  | .elem e ks => by
    simp only [Node.NoIn, Node.walk, List.forall_mem_cons]
    rw [noIns_walks pos 0 (e.decls ++ env) (e.tag :: anc) ks]
theorem noIns_walks {X Y : QName} (pos : Pos) (i : Nat) (env : NsMap) (anc : List QName) : ∀ ks : List Node,
    Node.NoIns X Y ks ↔ ∀ c ∈ Node.walks pos i env anc ks, c.e.tag = X → Node.Alls (fun e => e.tag ≠ Y) c.kids
  | [] => by simp [Node.NoIns, Node.walks]
  | k :: ks => by
    simp only [Node.NoIns, Node.walks, List.forall_mem_append]
    rw [noIn_walk (i :: pos) env anc k, noIns_walks pos (i + 1) env anc ks]
end

theorem noIn_elems {X Y : QName} {t : Node} :
    t.NoIn X Y ↔ ∀ c ∈ t.elems, c.e.tag = X → Node.Alls (fun e => e.tag ≠ Y) c.kids := noIn_walk [] [] [] t

theorem noIn_below {X Y : QName} {t : Node} (h : t.NoIn X Y) {c : Ctx} (hc : c ∈ t.elems) : c.node.NoIn X Y := by
  refine ⟨noIn_elems.1 h c hc, (noIns_walks c.pos 0 c.env (c.e.tag :: c.anc) c.kids).2 (fun d hd => ?_)⟩
  exact noIn_elems.1 h d (elems_below hc hd)

mutual
theorem rel_noIn {P : Elem → Elem → Prop} {X Y : QName} (hX : ∀ e e', P e e' → e'.tag = X → e.tag = X)
    (hY : ∀ e e', P e e' → e'.tag = Y → e.tag = Y) : ∀ {a b : Node}, Node.Rel P a b → a.NoIn X Y → b.NoIn X Y
  | .elem _ _, .elem _ _, h, ha => by
    simp only [Node.Rel] at h
    refine ⟨fun hx => rels_alls (A := fun e => e.tag ≠ Y) (fun e e' h h' hy => h' (hY e e' h hy)) h.2 (ha.1 (hX _ _ h.1 hx)), rels_noIns hX hY h.2 ha.2⟩
  | .other _ _, .other _ _, _, _ => by simp [Node.NoIn]
  | .elem _ _, .other _ _, h, _ => by simp only [Node.Rel] at h
  | .other _ _, .elem _ _, h, _ => by simp only [Node.Rel] at h
theorem rels_noIns {P : Elem → Elem → Prop} {X Y : QName} (hX : ∀ e e', P e e' → e'.tag = X → e.tag = X)
    (hY : ∀ e e', P e e' → e'.tag = Y → e.tag = Y) : ∀ {a b : List Node}, Node.Rels P a b → Node.NoIns X Y a → Node.NoIns X Y b
  | [], [], _, _ => by simp [Node.NoIns]
  | _ :: _, _ :: _, h, ha => by
    simp only [Node.Rels] at h
    exact ⟨rel_noIn hX hY h.1 ha.1, rels_noIns hX hY h.2 ha.2⟩
  | [], _ :: _, h, _ => by simp only [Node.Rels] at h
  | _ :: _, [], h, _ => by simp only [Node.Rels] at h
end

mutual
theorem noIn_substCtx {X Y : QName} {R : Ctx → Option Node} {pos : Pos} {env : NsMap} {anc : List QName} : ∀ (t : Node),
    (∀ c ∈ t.walk pos env anc, ∀ n, R c = some n → (c.node.NoIn X Y → n.NoIn X Y) ∧
      (c.node.All (fun e => e.tag ≠ Y) → n.All (fun e => e.tag ≠ Y))) → t.NoIn X Y → (t.substCtx R pos env anc).NoIn X Y
  | .other _ _, _, h => by simpa [Node.substCtx] using h
  | .elem e ks, hR, h => by
    simp only [Node.substCtx]
    split
    · next n hn => exact (hR ⟨pos, e.decls ++ env, anc, e, ks⟩ (by simp [Node.walk]) n hn).1 h
    · exact ⟨fun hx => alls_substCtxs ks (fun c hc n hn => (hR c (by simp [Node.walk, hc]) n hn).2) (h.1 hx),
        noIns_substCtxs ks (fun c hc => hR c (by simp [Node.walk, hc])) h.2⟩
theorem noIns_substCtxs {X Y : QName} {R : Ctx → Option Node} {pos : Pos} {i : Nat} {env : NsMap} {anc : List QName} :
    ∀ (ks : List Node), (∀ c ∈ Node.walks pos i env anc ks, ∀ n, R c = some n → (c.node.NoIn X Y → n.NoIn X Y) ∧
      (c.node.All (fun e => e.tag ≠ Y) → n.All (fun e => e.tag ≠ Y))) → Node.NoIns X Y ks →
    Node.NoIns X Y (Node.substCtxs R pos i env anc ks)
  | [], _, h => by simpa [Node.substCtxs] using h
  | k :: ks, hR, h => by
    simp only [Node.substCtxs]
    exact ⟨noIn_substCtx k (fun c hc => hR c (by simp [Node.walks, hc])) h.1,
      noIns_substCtxs ks (fun c hc => hR c (by simp [Node.walks, hc])) h.2⟩
end

theorem Replaced.noIn {Sel : Ctx → Prop} {Q : Ctx → Node → Prop} {t t' : Node} (h : Replaced Sel Q t t') {X Y : QName}
    (hq : ∀ c ∈ t.elems, ∀ n, Sel c → Q c n → (c.node.NoIn X Y → n.NoIn X Y) ∧
      (c.node.All (fun e => e.tag ≠ Y) → n.All (fun e => e.tag ≠ Y))) (ht : t.NoIn X Y) : t'.NoIn X Y := by
  obtain ⟨R, h1, h2, rfl⟩ := h
  refine noIn_substCtx t ?_ ht
  intro c hc n hn
  split at hn
  · cases hn
  · rcases Classical.em (Sel c) with hs | hs
    · obtain ⟨n', hn', hq'⟩ := h1 c hc hs
      rw [hn'] at hn
      cases hn
      exact hq c hc n hs hq'
    · rw [h2 c hc hs] at hn; cases hn

mutual
theorem all_pruneCtx {P : Elem → Prop} {S : Ctx → Bool} {pos : Pos} {env : NsMap} {anc : List QName} : ∀ (t : Node),
    t.All P → (t.pruneCtx S pos env anc).All P
  | .other _ _, _ => by simp [Node.pruneCtx, Node.All]
  | .elem e ks, h => by simp only [Node.pruneCtx]; exact ⟨h.1, alls_pruneCtxs ks h.2⟩
theorem alls_pruneCtxs {P : Elem → Prop} {S : Ctx → Bool} {pos : Pos} {i : Nat} {env : NsMap} {anc : List QName} :
    ∀ (ks : List Node), Node.Alls P ks → Node.Alls P (Node.pruneCtxs S pos i env anc ks)
  | [], _ => by simp [Node.pruneCtxs, Node.Alls]
  | .other a b :: ks, h => by
    simp only [Node.pruneCtxs]
    exact ⟨h.1, alls_pruneCtxs ks h.2⟩
  | .elem e es :: ks, h => by
    simp only [Node.pruneCtxs]
    split
    · exact alls_pruneCtxs ks h.2
    · exact ⟨all_pruneCtx (.elem e es) h.1, alls_pruneCtxs ks h.2⟩
end

theorem noIn_without {X Y : QName} {S : Ctx → Bool} {t : Node} (h : t.NoIn X Y) : (t.without S).NoIn X Y := by
  rw [noIn_elems]
  intro c' hc' hx
  obtain ⟨c, hc, he, _, _, hk, _⟩ := mem_without hc'
  rw [hk]
  exact alls_pruneCtxs _ (noIn_elems.1 h c hc (he ▸ hx))

/-- Parents of the elements in a list of nodes. -/
theorem walk_holder {P : Elem → Prop} {pos : Pos} {env : NsMap} {anc : List QName} {t : Node} (h : t.All P) {c : Ctx}
    (hc : c ∈ t.walk pos env anc) : c.anc = anc ∨ ∃ e, P e ∧ c.anc.head? = some e.tag := by
  have : ∀ (n : Nat) (t : Node) (pos : Pos) (env : NsMap) (anc : List QName), sizeOf t ≤ n → t.All P → c ∈ t.walk pos env anc →
      c.anc = anc ∨ ∃ e, P e ∧ c.anc.head? = some e.tag := by
    intro n
    induction n with
    | zero =>
      intro t pos env anc hn
      cases t <;> simp at hn
    | succ n ih =>
      intro t pos env anc hn h hc
      cases t with
      | other _ _ => simp [Node.walk] at hc
      | elem e ks =>
        simp only [Node.walk, List.mem_cons] at hc
        rcases hc with rfl | hc
        · exact Or.inl rfl
        · have key : ∀ (ks : List Node) (i : Nat), sizeOf ks ≤ n → Node.Alls P ks →
              c ∈ Node.walks pos i (e.decls ++ env) (e.tag :: anc) ks → ∃ e, P e ∧ c.anc.head? = some e.tag := by
            intro ks
            induction ks with
            | nil => intro i _ _ hc; simp [Node.walks] at hc
            | cons k ks ihk =>
              intro i hs hk hc
              simp only [Node.walks, List.mem_append] at hc
              simp only [List.cons.sizeOf_spec] at hs
              rcases hc with hc | hc
              · rcases ih k _ _ _ (by omega) hk.1 hc with h1 | h1
                · exact ⟨e, h.1, by rw [h1]; rfl⟩
                · exact h1
              · exact ihk (i + 1) (by omega) hk.2 hc
          simp only [Node.elem.sizeOf_spec] at hn
          exact Or.inr (key ks 0 (by omega) h.2 hc)
  exact this _ t pos env anc (Nat.le_refl _) h hc

mutual
theorem rel_walk_anc {P : Elem → Elem → Prop} (hP : ∀ e e', P e e' → e'.tag = e.tag) {pos : Pos} {env env' : NsMap}
    {anc : List QName} : ∀ {a b : Node}, Node.Rel P a b → ∀ c' ∈ b.walk pos env' anc, ∃ c ∈ a.walk pos env anc,
      c'.pos = c.pos ∧ c'.anc = c.anc ∧ P c.e c'.e ∧ Node.Rels P c.kids c'.kids
  | .elem e ks, .elem e' ks', h, c', hc => by
    simp only [Node.Rel] at h
    simp only [Node.walk, List.mem_cons] at hc
    rcases hc with rfl | hc
    · exact ⟨⟨pos, e.decls ++ env, anc, e, ks⟩, by simp [Node.walk], rfl, rfl, h.1, h.2⟩
    · rw [hP _ _ h.1] at hc
      obtain ⟨c, h1, h2⟩ := rels_walks_anc hP (env := e.decls ++ env) h.2 c' hc
      exact ⟨c, by simp [Node.walk, h1], h2⟩
  | .other _ _, .other _ _, _, c', hc => by simp [Node.walk] at hc
  | .elem _ _, .other _ _, h, _, _ => by simp only [Node.Rel] at h
  | .other _ _, .elem _ _, h, _, _ => by simp only [Node.Rel] at h
theorem rels_walks_anc {P : Elem → Elem → Prop} (hP : ∀ e e', P e e' → e'.tag = e.tag) {pos : Pos} {i : Nat} {env env' : NsMap}
    {anc : List QName} : ∀ {a b : List Node}, Node.Rels P a b → ∀ c' ∈ Node.walks pos i env' anc b,
      ∃ c ∈ Node.walks pos i env anc a, c'.pos = c.pos ∧ c'.anc = c.anc ∧ P c.e c'.e ∧ Node.Rels P c.kids c'.kids
  | [], [], _, c', hc => by simp [Node.walks] at hc
  | k :: ks, k' :: ks', h, c', hc => by
    simp only [Node.Rels] at h
    simp only [Node.walks, List.mem_append] at hc
    rcases hc with hc | hc
    · obtain ⟨c, h1, h2⟩ := rel_walk_anc hP (env := env) h.1 c' hc
      exact ⟨c, by simp [Node.walks, h1], h2⟩
    · obtain ⟨c, h1, h2⟩ := rels_walks_anc hP (env := env) h.2 c' hc
      exact ⟨c, by simp [Node.walks, h1], h2⟩
  | [], _ :: _, h, _, _ => by simp only [Node.Rels] at h
  | _ :: _, [], h, _, _ => by simp only [Node.Rels] at h
end

theorem rel_elems_anc {P : Elem → Elem → Prop} (hP : ∀ e e', P e e' → e'.tag = e.tag) {a b : Node} (h : Node.Rel P a b)
    {c' : Ctx} (hc : c' ∈ b.elems) : ∃ c ∈ a.elems, c'.pos = c.pos ∧ c'.anc = c.anc ∧ P c.e c'.e ∧ Node.Rels P c.kids c'.kids :=
  rel_walk_anc hP h c' hc

/-- A statement on the elements below the root, through a replacement. -/
theorem Replaced.below {Sel : Ctx → Prop} {Q : Ctx → Node → Prop} {t t' : Node} (h : Replaced Sel Q t t') {P : Elem → Prop}
    (ht : ∀ c ∈ t.elems, c.anc ≠ [] → ¬ Sel c → P c.e) (hq : ∀ c ∈ t.elems, ∀ n, Sel c → Q c n → n.All P) :
    ∀ c ∈ t'.elems, c.anc ≠ [] → P c.e := by
  intro c' hc' hne
  rcases h.elems hc' with ⟨c, hc, he, _, ha, _, hs, _⟩ | ⟨c, hc, _, hs, n, env0, hn, _, hw⟩
  · rw [he]; exact ht c hc (ha ▸ hne) (hs (ha ▸ hne))
  · exact (all_iff _ _ _ n).1 (hq c hc n hs hn) c' hw

theorem below_all {P : Elem → Prop} {t : Node} (h : ∀ c ∈ t.elems, c.anc ≠ [] → P c.e) {c : Ctx} (hc : c ∈ t.elems)
    (hne : c.anc ≠ []) : c.node.All P := by
  refine ⟨h c hc hne, (alls_walks c.pos 0 c.env (c.e.tag :: c.anc) c.kids).2 (fun d hd => ?_)⟩
  have hd' := elems_below hc hd
  refine h d hd' (fun ha => ?_)
  obtain ⟨l, j, _, hj⟩ := walks_pos _ _ _ _ _ d hd
  rw [(elems_root_iff hd').2 ha] at hj
  simp at hj

end Ramrod

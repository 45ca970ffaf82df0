import Verif.Lemmas.Edit
/-!
# Elements of a changed document
-/

namespace Ramrod

/-! ## Predicates on all elements -/

mutual
/-- Every element of the subtree satisfies `P`. -/
def Node.All (P : Elem → Prop) : Node → Prop
  | .other _ _ => True
  | .elem e ks => P e ∧ Node.Alls P ks
/-- Every element below the children satisfies `P`. -/
def Node.Alls (P : Elem → Prop) : List Node → Prop
  | [] => True
  | k :: ks => k.All P ∧ Node.Alls P ks
end

theorem alls_iff {P : Elem → Prop} : ∀ {ks : List Node}, Node.Alls P ks ↔ ∀ k ∈ ks, k.All P
  | [] => by simp [Node.Alls]
  | k :: ks => by simp [Node.Alls, alls_iff (ks := ks)]

mutual
theorem all_iff {P : Elem → Prop} (pos : Pos) (env : NsMap) (anc : List QName) : ∀ t : Node,
    t.All P ↔ ∀ c ∈ t.walk pos env anc, P c.e
  | .other _ _ => by simp [Node.All, Node.walk]
  | .elem e ks => by
    simp only [Node.All, Node.walk, List.forall_mem_cons]
    rw [alls_walks pos 0 (e.decls ++ env) (e.tag :: anc) ks]
theorem alls_walks {P : Elem → Prop} (pos : Pos) (i : Nat) (env : NsMap) (anc : List QName) : ∀ ks : List Node,
    Node.Alls P ks ↔ ∀ c ∈ Node.walks pos i env anc ks, P c.e
  | [] => by simp [Node.Alls, Node.walks]
  | k :: ks => by
    simp only [Node.Alls, Node.walks, List.forall_mem_append]
    rw [all_iff (i :: pos) env anc k, alls_walks pos (i + 1) env anc ks]
end

theorem all_elems {P : Elem → Prop} {t : Node} : t.All P ↔ ∀ c ∈ t.elems, P c.e := all_iff _ _ _ t

theorem Node.All.mono {P Q : Elem → Prop} {t : Node} (h : t.All P) (hpq : ∀ e, P e → Q e) : t.All Q :=
  all_elems.2 (fun c hc => hpq _ (all_elems.1 h c hc))

mutual
theorem all_of_walk {P : Elem → Prop} {pos : Pos} {env : NsMap} {anc : List QName} : ∀ (t : Node), t.All P →
    ∀ c ∈ t.walk pos env anc, c.node.All P
  | .other _ _, _, c, hc => by simp [Node.walk] at hc
  | .elem e ks, h, c, hc => by
    simp only [Node.walk, List.mem_cons] at hc
    rcases hc with rfl | hc
    · exact h
    · exact all_of_walks ks h.2 c hc
theorem all_of_walks {P : Elem → Prop} {pos : Pos} {i : Nat} {env : NsMap} {anc : List QName} :
    ∀ (ks : List Node), Node.Alls P ks → ∀ c ∈ Node.walks pos i env anc ks, c.node.All P
  | [], _, c, hc => by simp [Node.walks] at hc
  | k :: ks, h, c, hc => by
    simp only [Node.walks, List.mem_append] at hc
    rcases hc with hc | hc
    · exact all_of_walk k h.1 c hc
    · exact all_of_walks ks h.2 c hc
end

mutual
theorem all_mapCtx {P Q : Elem → Prop} {F : Ctx → Elem} {pos : Pos} {env : NsMap} {anc : List QName} :
    ∀ (t : Node), t.All P → (∀ c ∈ t.walk pos env anc, P c.e → Q (F c)) → (t.mapCtx F pos env anc).All Q
  | .other _ _, _, _ => by simp [Node.mapCtx, Node.All]
  | .elem e ks, h, H => by
    simp only [Node.mapCtx, Node.All]
    exact ⟨H _ (by simp [Node.walk]) h.1, all_mapCtxs ks h.2 (fun c hc => H c (by simp [Node.walk, hc]))⟩
theorem all_mapCtxs {P Q : Elem → Prop} {F : Ctx → Elem} {pos : Pos} {i : Nat} {env : NsMap} {anc : List QName} :
    ∀ (ks : List Node), Node.Alls P ks → (∀ c ∈ Node.walks pos i env anc ks, P c.e → Q (F c)) →
    Node.Alls Q (Node.mapCtxs F pos i env anc ks)
  | [], _, _ => by simp [Node.mapCtxs, Node.Alls]
  | k :: ks, h, H => by
    simp only [Node.mapCtxs, Node.Alls]
    exact ⟨all_mapCtx k h.1 (fun c hc => H c (by simp [Node.walks, hc])),
      all_mapCtxs ks h.2 (fun c hc => H c (by simp [Node.walks, hc]))⟩
end

theorem all_edit {P Q : Elem → Prop} {F : Ctx → Elem} {t : Node} (h : t.All P)
    (H : ∀ c ∈ t.elems, P c.e → Q (F c)) : (t.edit F).All Q := all_mapCtx t h H

mutual
theorem all_mapPos {P : Elem → Prop} {f : Pos → Elem → Elem} (hf : ∀ p e, P e → P (f p e)) {pos : Pos} :
    ∀ (t : Node), t.All P → (t.mapPos f pos).All P
  | .other _ _, _ => by simp [Node.mapPos, Node.All]
  | .elem e ks, h => by
    simp only [Node.mapPos, Node.All]
    exact ⟨hf _ _ h.1, all_mapPoss hf ks h.2⟩
theorem all_mapPoss {P : Elem → Prop} {f : Pos → Elem → Elem} (hf : ∀ p e, P e → P (f p e)) {pos : Pos} {i : Nat} :
    ∀ (ks : List Node), Node.Alls P ks → Node.Alls P (Node.mapPoss f pos i ks)
  | [], _ => by simp [Node.mapPoss, Node.Alls]
  | k :: ks, h => by
    simp only [Node.mapPoss, Node.Alls]
    exact ⟨all_mapPos hf k h.1, all_mapPoss hf ks h.2⟩
end

theorem all_modifyAt {P : Elem → Prop} {t : Node} (h : t.All P) {p : Pos} {g : Elem → Elem}
    (hg : ∀ e, P e → P (g e)) : (t.modifyAt p g).All P :=
  all_mapPos (fun q e he => by split; exact hg e he; exact he) t h

mutual
theorem all_subst {P : Elem → Prop} {r : Pos → Option Node} (hr : ∀ p n, r p = some n → n.All P) {pos : Pos} :
    ∀ (t : Node), t.All P → (t.subst r pos).All P
  | .other _ _, _ => by simp [Node.subst, Node.All]
  | .elem e ks, h => by
    simp only [Node.subst]
    split
    · next n hn => exact hr _ _ hn
    · exact ⟨h.1, all_substs hr ks h.2⟩
theorem all_substs {P : Elem → Prop} {r : Pos → Option Node} (hr : ∀ p n, r p = some n → n.All P) {pos : Pos}
    {i : Nat} : ∀ (ks : List Node), Node.Alls P ks → Node.Alls P (Node.substs r pos i ks)
  | [], _ => by simp [Node.substs, Node.Alls]
  | k :: ks, h => by
    simp only [Node.substs, Node.Alls]
    exact ⟨all_subst hr k h.1, all_substs hr ks h.2⟩
end

theorem posLookup_mem {l : List (Pos × Node)} {p : Pos} {n : Node} (h : posLookup l p = some n) : (p, n) ∈ l := by
  induction l with
  | nil => cases h
  | cons x xs ih =>
    obtain ⟨q, m⟩ := x
    simp only [posLookup] at h
    split at h
    · next hq => simp only [Option.some.injEq] at h; subst hq h; simp
    · exact List.mem_cons_of_mem _ (ih h)

theorem all_replaceAll {P : Elem → Prop} {t : Node} (h : t.All P) {l : List (Pos × Node)}
    (hl : ∀ x ∈ l, x.2.All P) : (t.replaceAll l).All P := by
  refine all_subst ?_ t h
  intro p n hn
  by_cases hp : p = []
  · simp [hp] at hn
  · simp only [hp, if_false] at hn
    exact hl _ (posLookup_mem hn)

mutual
theorem all_prune {P : Elem → Prop} {s : Pos → Bool} {pos : Pos} : ∀ (t : Node), t.All P → (t.prune s pos).All P
  | .other _ _, _ => by simp [Node.prune, Node.All]
  | .elem e ks, h => by simp only [Node.prune, Node.All]; exact ⟨h.1, all_prunes ks h.2⟩
theorem all_prunes {P : Elem → Prop} {s : Pos → Bool} {pos : Pos} {i : Nat} : ∀ (ks : List Node),
    Node.Alls P ks → Node.Alls P (Node.prunes s pos i ks)
  | [], _ => by simp [Node.prunes, Node.Alls]
  | .other c t :: ks, h => by
    simp only [Node.prunes, Node.Alls]; exact ⟨h.1, all_prunes ks h.2⟩
  | .elem e es :: ks, h => by
    simp only [Node.prunes]
    split
    · exact all_prunes ks h.2
    · simp only [Node.Alls]; exact ⟨all_prune _ h.1, all_prunes ks h.2⟩
end

theorem all_removeAll {P : Elem → Prop} {t : Node} (h : t.All P) (ps : List Pos) : (t.removeAll ps).All P :=
  all_prune t h

theorem mapE_mem {α β ε : Type} {f : α → Except ε β} : ∀ {l : List α} {r : List β}, mapE f l = .ok r →
    ∀ b ∈ r, ∃ a ∈ l, f a = .ok b
  | [], r, h, b, hb => by simp only [mapE, Except.ok.injEq] at h; subst h; cases hb
  | a :: as, r, h, b, hb => by
    simp only [mapE] at h
    cases hf : f a with
    | error x => rw [hf] at h; cases h
    | ok b0 =>
      rw [hf] at h
      cases hm : mapE f as with
      | error x => rw [hm] at h; cases h
      | ok r' =>
        rw [hm] at h
        simp only [Except.ok.injEq] at h
        subst h
        rcases List.mem_cons.1 hb with rfl | hb
        · exact ⟨a, by simp, hf⟩
        · obtain ⟨a', ha', h'⟩ := mapE_mem hm b hb
          exact ⟨a', by simp [ha'], h'⟩

theorem mapE_eq {α β ε : Type} {f : α → Except ε β} : ∀ {l : List α} {r : List β}, mapE f l = .ok r →
    (∀ a ∈ l, ∃ b, f a = .ok b) ∧ ∀ g : α → β, (∀ a b, f a = .ok b → g a = b) → r = l.map g
  | [], r, h => by simp only [mapE, Except.ok.injEq] at h; subst h; simp
  | a :: as, r, h => by
    simp only [mapE] at h
    cases hf : f a with
    | error x => rw [hf] at h; cases h
    | ok b0 =>
      rw [hf] at h
      cases hm : mapE f as with
      | error x => rw [hm] at h; cases h
      | ok r' =>
        rw [hm] at h
        simp only [Except.ok.injEq] at h
        subst h
        obtain ⟨h1, h2⟩ := mapE_eq hm
        refine ⟨?_, ?_⟩
        · intro x hx
          rcases List.mem_cons.1 hx with rfl | hx
          · exact ⟨b0, hf⟩
          · exact h1 x hx
        · intro g hg
          rw [List.map_cons, ← h2 g hg, hg a b0 hf]

/-- What a translation puts into the document. -/
def TransKind.Yields (m : List (String × String)) (k : TransKind) (c : Ctx) (n : Node) : Prop :=
  match k with
  | .renamed _ => False
  | .value p nt ca ov => translateValue m p nt ca ov c = .ok n
  | .custom g => g c = .ok n
  | .parent g => g c = .ok n

theorem except_map_ok {ε α β : Type} {x : Except ε α} {f : α → β} {b : β} (h : x.map f = .ok b) :
    ∃ a, x = .ok a ∧ f a = b := by
  cases x with
  | error e => cases h
  | ok a => simp only [Except.map, Except.ok.injEq] at h; exact ⟨a, rfl, h⟩

theorem all_translate {P : Elem → Prop} {f : Trans} {t t' : Node} (h : t.All P) (ht : f.translate t = .ok t')
    (hr : ∀ tag, f.kind = .renamed tag → ∀ e, P e → P { e with tag := tag })
    (hn : ∀ c ∈ t.xpath f.nsmap f.xpath, ∀ n, c.node.All P → f.kind.Yields f.nsmap c n → n.All P) : t'.All P := by
  have hx : ∀ c ∈ t.xpath f.nsmap f.xpath, c.node.All P := fun c hc =>
    all_of_walk t h c (List.mem_filter.1 hc).1
  simp only [Trans.translate] at ht
  split at ht
  · next tag hk =>
    simp only [Except.ok.injEq] at ht
    rw [← ht, modifyXpath_eq]
    refine all_edit h (fun c _ hc => ?_)
    split
    · exact hr tag hk _ hc
    · exact hc
  all_goals
    next hk =>
    split at ht
    · cases ht
    · next l hl =>
      simp only [Except.ok.injEq] at ht
      rw [← ht]
      refine all_replaceAll h ?_
      intro x hxl
      obtain ⟨c, hc, hfc⟩ := mapE_mem hl x hxl
      obtain ⟨n, hy, rfl⟩ := except_map_ok hfc
      exact hn c hc n (hx c hc) (by rw [hk]; exact hy)

theorem all_translateFields {P : Elem → Prop} {fs : List Trans} {t t' : Node} (h : t.All P)
    (ht : translateFields fs t = .ok t')
    (hr : ∀ f ∈ fs, ∀ tag, f.kind = .renamed tag → ∀ e, P e → P { e with tag := tag })
    (hn : ∀ f ∈ fs, ∀ c n, f.xpath.any (fun a => a.selects f.nsmap c) = true → c.node.All P →
      f.kind.Yields f.nsmap c n → n.All P) : t'.All P := by
  refine foldE_inv (fun s => s.All P) fs t t' ?_ h ht
  intro s f s' hf hs hst
  exact all_translate hs hst (hr f hf) (fun c hc n => hn f hf c n (List.mem_filter.1 hc).2)

theorem all_removeOptionals {P : Elem → Prop} {fs : List Finder} {t t' : Node} (h : t.All P)
    (ht : removeOptionals fs t = .ok t') : t'.All P := by
  refine foldE_inv (fun s => s.All P) fs t t' ?_ h ht
  intro s f s' _ hs hst
  split at hst
  · cases hst
  · simp only [Except.ok.injEq] at hst
    rw [← hst]; exact all_removeAll hs _

theorem all_optionalsIf {P : Elem → Prop} {b : Bool} {fs : List Finder} {t t' : Node} (h : t.All P)
    (ht : (if b then removeOptionals fs t else .ok t) = .ok t') : t'.All P := by
  cases b with
  | true => exact all_removeOptionals h ht
  | false => simp only [Bool.false_eq_true, if_false, Except.ok.injEq] at ht; rw [← ht]; exact h

/-- The vocabulary passes keep any predicate that survives each node update. -/
theorem all_updateVocabs {P : Elem → Prop} {vs : List Vocab} {t t' : Node} (h : t.All P)
    (ht : updateVocabs vs t = .ok t') (hv : ∀ v ∈ vs, ∀ e e', P e → v.updateNode e = .ok e' → P e') : t'.All P := by
  refine foldE_inv (fun s => s.All P) vs t t' ?_ h ht
  intro s v s' hvm hs hst
  rw [(vocabUpdate_eq hst).1]
  refine all_edit hs (fun c _ hc => ?_)
  unfold Vocab.edit
  split
  · split
    · next e' he => exact hv v hvm _ _ hc he
    · exact hc
  · exact hc

theorem all_vocabsIf {P : Elem → Prop} {b : Bool} {vs : List Vocab} {t t' : Node} (h : t.All P)
    (ht : (if b then updateVocabs vs t else .ok t) = .ok t')
    (hv : ∀ v ∈ vs, ∀ e e', P e → v.updateNode e = .ok e' → P e') : t'.All P := by
  cases b with
  | true => exact all_updateVocabs h ht hv
  | false => simp only [Bool.false_eq_true, if_false, Except.ok.injEq] at ht; rw [← ht]; exact h

/-! ## Elements of pruned and substituted documents -/

mutual
theorem mem_walk_pruneCtx {S : Ctx → Bool} {pos pos' : Pos} {env : NsMap} {anc : List QName} : ∀ (t : Node),
    ∀ c' ∈ (t.pruneCtx S pos env anc).walk pos' env anc, ∃ c ∈ t.walk pos env anc,
      c'.e = c.e ∧ c'.env = c.env ∧ c'.anc = c.anc ∧
      c'.kids = Node.pruneCtxs S c.pos 0 c.env (c.e.tag :: c.anc) c.kids ∧ (c.pos = pos ∨ S c = false)
  | .other _ _, c', h => by simp [Node.pruneCtx, Node.walk] at h
  | .elem e ks, c', h => by
    simp only [Node.pruneCtx, Node.walk, List.mem_cons] at h
    rcases h with rfl | h
    · exact ⟨⟨pos, e.decls ++ env, anc, e, ks⟩, by simp [Node.walk], rfl, rfl, rfl, rfl, Or.inl rfl⟩
    · obtain ⟨c, hc, h1, h2, h3, h4, h5⟩ := mem_walks_pruneCtxs ks c' h
      exact ⟨c, by simp [Node.walk, hc], h1, h2, h3, h4, Or.inr h5⟩
theorem mem_walks_pruneCtxs {S : Ctx → Bool} {pos pos' : Pos} {i j : Nat} {env : NsMap} {anc : List QName} :
    ∀ (ks : List Node), ∀ c' ∈ Node.walks pos' j env anc (Node.pruneCtxs S pos i env anc ks),
      ∃ c ∈ Node.walks pos i env anc ks, c'.e = c.e ∧ c'.env = c.env ∧ c'.anc = c.anc ∧
      c'.kids = Node.pruneCtxs S c.pos 0 c.env (c.e.tag :: c.anc) c.kids ∧ S c = false
  | [], c', h => by simp [Node.pruneCtxs, Node.walks] at h
  | .other x y :: ks, c', h => by
    simp only [Node.pruneCtxs, Node.walks, Node.walk, List.nil_append] at h
    obtain ⟨c, hc, H⟩ := mem_walks_pruneCtxs ks c' h
    exact ⟨c, by simp [Node.walks, hc], H⟩
  | .elem e es :: ks, c', h => by
    simp only [Node.pruneCtxs] at h
    split at h
    · obtain ⟨c, hc, H⟩ := mem_walks_pruneCtxs ks c' h
      exact ⟨c, by simp [Node.walks, hc], H⟩
    · next hs =>
      simp only [Node.walks, List.mem_append] at h
      rcases h with h | h
      · obtain ⟨c, hc, h1, h2, h3, h4, h5⟩ := mem_walk_pruneCtx (.elem e es) c' h
        refine ⟨c, by simp [Node.walks, hc], h1, h2, h3, h4, ?_⟩
        rcases h5 with h5 | h5
        · simp only [Node.walk, List.mem_cons] at hc
          rcases hc with rfl | hc
          · simpa using hs
          · obtain ⟨l, k, _, h6⟩ := walks_pos _ _ _ _ es c hc
            rw [h6] at h5
            have := congrArg List.length h5
            simp only [List.length_append, List.length_cons] at this
            omega
        · exact h5
      · obtain ⟨c, hc, H⟩ := mem_walks_pruneCtxs ks c' h
        exact ⟨c, by simp [Node.walks, hc], H⟩
end

/-- Elements left after removal are elements of the original document with the same data and place, and
they were not selected. -/
theorem mem_without {S : Ctx → Bool} {t : Node} {c' : Ctx} (h : c' ∈ (t.without S).elems) :
    ∃ c ∈ t.elems, c'.e = c.e ∧ c'.env = c.env ∧ c'.anc = c.anc ∧
      c'.kids = Node.pruneCtxs S c.pos 0 c.env (c.e.tag :: c.anc) c.kids ∧ (c.anc ≠ [] → S c = false) := by
  obtain ⟨c, hc, h1, h2, h3, h4, h5⟩ := mem_walk_pruneCtx t c' h
  refine ⟨c, hc, h1, h2, h3, h4, fun hne => ?_⟩
  rcases h5 with h5 | h5
  · exact absurd ((elems_root_iff hc).1 h5) hne
  · exact h5

theorem removeAll_without (t : Node) (ps : List Pos) : t.removeAll ps = t.without (fun c => decide (c.pos ∈ ps)) :=
  prune_eq_pruneCtx [] [] [] t (fun _ _ => rfl)

theorem mem_removeAll {t : Node} {ps : List Pos} {c' : Ctx} (h : c' ∈ (t.removeAll ps).elems) :
    ∃ c ∈ t.elems, c'.e = c.e ∧ c'.env = c.env ∧ c'.anc = c.anc := by
  rw [removeAll_without] at h
  obtain ⟨c, hc, h1, h2, h3, _⟩ := mem_without h
  exact ⟨c, hc, h1, h2, h3⟩

theorem mem_removeOptionals {fs : List Finder} {t t' : Node} (h : removeOptionals fs t = .ok t') :
    ∀ c' ∈ t'.elems, ∃ c ∈ t.elems, c'.e = c.e ∧ c'.env = c.env ∧ c'.anc = c.anc := by
  refine foldE_inv (fun s => ∀ c' ∈ s.elems, ∃ c ∈ t.elems, c'.e = c.e ∧ c'.env = c.env ∧ c'.anc = c.anc) fs t t' ?_
    (fun c hc => ⟨c, hc, rfl, rfl, rfl⟩) h
  intro s f s' _ hs hst c' hc'
  split at hst
  · cases hst
  · simp only [Except.ok.injEq] at hst
    rw [← hst] at hc'
    obtain ⟨c1, h1, a1, a2, a3⟩ := mem_removeAll hc'
    obtain ⟨c, h0, b1, b2, b3⟩ := hs c1 h1
    exact ⟨c, h0, a1.trans b1, a2.trans b2, a3.trans b3⟩

theorem mem_optionalsIf {b : Bool} {fs : List Finder} {t t' : Node}
    (h : (if b then removeOptionals fs t else .ok t) = .ok t') :
    ∀ c' ∈ t'.elems, ∃ c ∈ t.elems, c'.e = c.e ∧ c'.env = c.env ∧ c'.anc = c.anc := by
  cases b with
  | true => exact mem_removeOptionals h
  | false =>
    simp only [Bool.false_eq_true, if_false, Except.ok.injEq] at h
    subst h
    exact fun c hc => ⟨c, hc, rfl, rfl, rfl⟩

mutual
theorem mem_walk_substCtx {R : Ctx → Option Node} {pos : Pos} {env : NsMap} {anc : List QName} : ∀ (t : Node),
    ∀ c' ∈ (t.substCtx R pos env anc).walk pos env anc,
      (∃ c ∈ t.walk pos env anc, R c = none ∧
        c' = { c with kids := Node.substCtxs R c.pos 0 c.env (c.e.tag :: c.anc) c.kids }) ∨
      (∃ c ∈ t.walk pos env anc, ∃ n env0, R c = some n ∧ c.env = c.e.decls ++ env0 ∧ c' ∈ n.walk c.pos env0 c.anc)
  | .other _ _, c', h => by simp [Node.substCtx, Node.walk] at h
  | .elem e ks, c', h => by
    simp only [Node.substCtx] at h
    split at h
    · next n hn =>
      exact Or.inr ⟨⟨pos, e.decls ++ env, anc, e, ks⟩, by simp [Node.walk], n, env, hn, rfl, h⟩
    · next hn =>
      simp only [Node.walk, List.mem_cons] at h
      rcases h with rfl | h
      · exact Or.inl ⟨⟨pos, e.decls ++ env, anc, e, ks⟩, by simp [Node.walk], hn, rfl⟩
      · rcases mem_walks_substCtxs ks c' h with ⟨c, hc, H⟩ | ⟨c, hc, H⟩
        · exact Or.inl ⟨c, by simp [Node.walk, hc], H⟩
        · exact Or.inr ⟨c, by simp [Node.walk, hc], H⟩
theorem mem_walks_substCtxs {R : Ctx → Option Node} {pos : Pos} {i : Nat} {env : NsMap} {anc : List QName} :
    ∀ (ks : List Node), ∀ c' ∈ Node.walks pos i env anc (Node.substCtxs R pos i env anc ks),
      (∃ c ∈ Node.walks pos i env anc ks, R c = none ∧
        c' = { c with kids := Node.substCtxs R c.pos 0 c.env (c.e.tag :: c.anc) c.kids }) ∨
      (∃ c ∈ Node.walks pos i env anc ks, ∃ n env0, R c = some n ∧ c.env = c.e.decls ++ env0 ∧
        c' ∈ n.walk c.pos env0 c.anc)
  | [], c', h => by simp [Node.substCtxs, Node.walks] at h
  | k :: ks, c', h => by
    simp only [Node.substCtxs, Node.walks, List.mem_append] at h
    rcases h with h | h
    · rcases mem_walk_substCtx k c' h with ⟨c, hc, H⟩ | ⟨c, hc, H⟩
      · exact Or.inl ⟨c, by simp [Node.walks, hc], H⟩
      · exact Or.inr ⟨c, by simp [Node.walks, hc], H⟩
    · rcases mem_walks_substCtxs ks c' h with ⟨c, hc, H⟩ | ⟨c, hc, H⟩
      · exact Or.inl ⟨c, by simp [Node.walks, hc], H⟩
      · exact Or.inr ⟨c, by simp [Node.walks, hc], H⟩
end

mutual
theorem mem_walk_mapCtx {F : Ctx → Elem} {pos : Pos} {env env' : NsMap} {anc anc' : List QName}
    (hl : anc'.length = anc.length) : ∀ (t : Node),
    ∀ c' ∈ (t.mapCtx F pos env anc).walk pos env' anc', ∃ c ∈ t.walk pos env anc,
      c'.pos = c.pos ∧ c'.e = F c ∧ c'.anc.length = c.anc.length ∧
      c'.kids = Node.mapCtxs F c.pos 0 c.env (c.e.tag :: c.anc) c.kids
  | .other _ _, c', h => by simp [Node.mapCtx, Node.walk] at h
  | .elem e ks, c', h => by
    simp only [Node.mapCtx, Node.walk, List.mem_cons] at h
    rcases h with rfl | h
    · exact ⟨⟨pos, e.decls ++ env, anc, e, ks⟩, by simp [Node.walk], rfl, rfl, hl, rfl⟩
    · obtain ⟨c, hc, H⟩ := mem_walks_mapCtxs (by simp [hl]) ks c' h
      exact ⟨c, by simp [Node.walk, hc], H⟩
theorem mem_walks_mapCtxs {F : Ctx → Elem} {pos : Pos} {i : Nat} {env env' : NsMap} {anc anc' : List QName}
    (hl : anc'.length = anc.length) : ∀ (ks : List Node),
    ∀ c' ∈ Node.walks pos i env' anc' (Node.mapCtxs F pos i env anc ks), ∃ c ∈ Node.walks pos i env anc ks,
      c'.pos = c.pos ∧ c'.e = F c ∧ c'.anc.length = c.anc.length ∧
      c'.kids = Node.mapCtxs F c.pos 0 c.env (c.e.tag :: c.anc) c.kids
  | [], c', h => by simp [Node.mapCtxs, Node.walks] at h
  | k :: ks, c', h => by
    simp only [Node.mapCtxs, Node.walks, List.mem_append] at h
    rcases h with h | h
    · obtain ⟨c, hc, H⟩ := mem_walk_mapCtx hl k c' h
      exact ⟨c, by simp [Node.walks, hc], H⟩
    · obtain ⟨c, hc, H⟩ := mem_walks_mapCtxs hl ks c' h
      exact ⟨c, by simp [Node.walks, hc], H⟩
end

/-- Elements of an edited document, for any edit. -/
theorem mem_edit {F : Ctx → Elem} {t : Node} {c' : Ctx} (h : c' ∈ (t.edit F).elems) : ∃ c ∈ t.elems,
    c'.pos = c.pos ∧ c'.e = F c ∧ c'.anc.length = c.anc.length ∧
      c'.kids = Node.mapCtxs F c.pos 0 c.env (c.e.tag :: c.anc) c.kids := mem_walk_mapCtx rfl t c' h

end Ramrod

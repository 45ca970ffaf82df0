import Verif.Lemmas.Optional
/-!
# Field translations as one replacement
-/

namespace Ramrod

/-- `t'` is `t` with every outermost element (below the root) satisfying `Sel` replaced by a node related to it by `Q`;
everything else is as before. -/
def Replaced (Sel : Ctx → Prop) (Q : Ctx → Node → Prop) (t t' : Node) : Prop :=
  ∃ R, (∀ c ∈ t.elems, Sel c → ∃ n, R c = some n ∧ Q c n) ∧ (∀ c ∈ t.elems, ¬ Sel c → R c = none) ∧ t' = t.replaceBy R

theorem Replaced.mono {Sel Sel' : Ctx → Prop} {Q Q' : Ctx → Node → Prop} {t t' : Node} (h : Replaced Sel Q t t')
    (hs : ∀ c ∈ t.elems, Sel' c ↔ Sel c) (hq : ∀ c ∈ t.elems, ∀ n, Sel c → Q c n → Q' c n) : Replaced Sel' Q' t t' := by
  obtain ⟨R, h1, h2, h3⟩ := h
  refine ⟨R, fun c hc hs' => ?_, fun c hc hs' => h2 c hc (fun h => hs' ((hs c hc).2 h)), h3⟩
  obtain ⟨n, hn, hqn⟩ := h1 c hc ((hs c hc).1 hs')
  exact ⟨n, hn, hq c hc n ((hs c hc).1 hs') hqn⟩

theorem mapE_total {α β ε : Type} {f : α → Except ε β} : ∀ {l : List α}, (∀ a ∈ l, ∃ b, f a = .ok b) →
    ∃ r, mapE f l = .ok r
  | [], _ => ⟨[], rfl⟩
  | a :: as, h => by
    obtain ⟨b, hb⟩ := h a (by simp)
    obtain ⟨r, hr⟩ := mapE_total (f := f) (l := as) (fun x hx => h x (by simp [hx]))
    exact ⟨b :: r, by simp only [mapE, hb, hr]⟩

/-- The loop of `translate` for one field. -/
theorem translate_custom {alts : List XAlt} {m : List (String × String)} {g : Ctx → Except Err Node} {t t' : Node}
    (h : (⟨alts, m, .custom g⟩ : Trans).translate t = .ok t') :
    Replaced (fun c => alts.any (fun a => a.selects m c) = true) (fun c n => g c = .ok n) t t' := by
  simp only [Trans.translate] at h
  split at h
  · cases h
  · next l hl =>
    simp only [Except.ok.injEq] at h
    obtain ⟨h1, h2⟩ := mapE_eq hl
    have hd : ∀ c ∈ t.xpath m alts, ∃ n, g c = .ok n := by
      intro c hc
      obtain ⟨b, hb⟩ := h1 c hc
      obtain ⟨n, hn, _⟩ := except_map_ok hb
      exact ⟨n, hn⟩
    let f : Ctx → Node := fun c => match g c with | .ok n => n | .error _ => c.node
    have hf : ∀ c n, g c = .ok n → f c = n := fun c n hn => by simp only [f, hn]
    have hl' := h2 (fun c => (c.pos, f c)) (fun c b hb => by
      obtain ⟨n, hn, hb'⟩ := except_map_ok hb
      rw [← hb', hf c n hn])
    rw [hl'] at h
    refine ⟨fun c => if alts.any (fun a => a.selects m c) then some (f c) else none, ?_, ?_, ?_⟩
    · intro c hc hs
      obtain ⟨n, hn⟩ := hd c (List.mem_filter.2 ⟨hc, hs⟩)
      exact ⟨n, by show (if _ then _ else _) = _; rw [if_pos hs, hf c n hn], hn⟩
    · intro c _ hs
      exact if_neg hs
    · rw [← h]; exact replaceAll_filter t _ f

theorem translate_custom_ok {alts : List XAlt} {m : List (String × String)} {g : Ctx → Except Err Node} {t : Node}
    (h : ∀ c ∈ t.elems, alts.any (fun a => a.selects m c) = true → ∃ n, g c = .ok n) :
    ∃ t', (⟨alts, m, .custom g⟩ : Trans).translate t = .ok t' := by
  obtain ⟨r, hr⟩ := mapE_total (f := fun c => (g c).map (fun n => (c.pos, n))) (l := t.xpath m alts) (fun c hc => by
    obtain ⟨h1, h2⟩ := List.mem_filter.1 hc
    obtain ⟨n, hn⟩ := h c h1 h2
    exact ⟨(c.pos, n), by rw [hn]; rfl⟩)
  exact ⟨t.replaceAll r, by simp only [Trans.translate, hr]⟩

theorem translate_custom_err {alts : List XAlt} {m : List (String × String)} {g : Ctx → Except Err Node} {t t' : Node}
    (h : (⟨alts, m, .custom g⟩ : Trans).translate t = .ok t') :
    ∀ c ∈ t.elems, alts.any (fun a => a.selects m c) = true → ∃ n, g c = .ok n := by
  obtain ⟨R, h1, _⟩ := translate_custom h
  intro c hc hs
  obtain ⟨n, _, hn⟩ := h1 c hc hs
  exact ⟨n, hn⟩

/-- A field with the inherited translation is a field with this translation. -/
theorem translate_value_eq {alts : List XAlt} {m : List (String × String)} {p : Option XName} {nt : Option QName} {ca : Bool}
    {ov : List (QName × String)} {t : Node} : (⟨alts, m, .value p nt ca ov⟩ : Trans).translate t =
      (⟨alts, m, .custom (translateValue m p nt ca ov)⟩ : Trans).translate t := rfl

/-! ## Renaming -/

/-- The renaming of the elements below the root by `f`. -/
def renBelow (f : QName → QName) (c : Ctx) : Elem := if c.anc.isEmpty then c.e else { c.e with tag := f c.e.tag }

mutual
theorem mapCtx_ren {f g : QName → QName} {pos : Pos} {env env' : NsMap} {anc anc' : List QName}
    (h : anc'.isEmpty = anc.isEmpty) : ∀ (t : Node),
    (t.mapCtx (renBelow f) pos env anc).mapCtx (renBelow g) pos env' anc' = t.mapCtx (renBelow (g ∘ f)) pos env anc
  | .other _ _ => by simp [Node.mapCtx]
  | .elem e ks => by
    simp only [Node.mapCtx]
    rw [mapCtxs_ren (by simp) ks]
    congr 1
    unfold renBelow
    simp only [h]
    cases anc.isEmpty <;> simp
theorem mapCtxs_ren {f g : QName → QName} {pos : Pos} {i : Nat} {env env' : NsMap} {anc anc' : List QName}
    (h : anc'.isEmpty = anc.isEmpty) : ∀ (ks : List Node),
    Node.mapCtxs (renBelow g) pos i env' anc' (Node.mapCtxs (renBelow f) pos i env anc ks) =
      Node.mapCtxs (renBelow (g ∘ f)) pos i env anc ks
  | [] => by simp [Node.mapCtxs]
  | k :: ks => by
    simp only [Node.mapCtxs]
    rw [mapCtx_ren h k, mapCtxs_ren h ks]
end

theorem edit_ren {f g : QName → QName} {t : Node} :
    (t.edit (renBelow f)).edit (renBelow g) = t.edit (renBelow (g ∘ f)) := mapCtx_ren rfl t

/-- One name to another. -/
def ren1 (a b : QName) (q : QName) : QName := if q = a then b else q

theorem translate_renamed {p n : String} {m : List (String × String)} {tag : QName} {t : Node} :
    (⟨[rel p n], m, .renamed tag⟩ : Trans).translate t =
      .ok (t.edit (renBelow (ren1 (XName.resolve m ⟨p, n⟩) tag))) := by
  simp only [Trans.translate]
  rw [modifyXpath_eq]
  congr 2
  funext c
  unfold renBelow ren1 XAlt.selects rel
  simp only [List.any_cons, List.any_nil, Bool.or_false, XPred.holds, Bool.and_true, Bool.false_or, Bool.and_eq_true,
    decide_eq_true_eq]
  cases ha : c.anc with
  | nil => simp
  | cons a as =>
    simp only [List.length_cons, List.isEmpty_cons, Bool.false_eq_true, if_false]
    by_cases ht : c.e.tag = XName.resolve m ⟨p, n⟩
    · simp [ht]
    · simp [ht]

/-! ## Selection -/

theorem rel_selects {m : List (String × String)} {p n : String} {c : Ctx} :
    ([rel p n].any (fun a => a.selects m c) = true) ↔ c.anc ≠ [] ∧ c.e.tag = XName.resolve m ⟨p, n⟩ := by
  rw [plain_select (by rfl)]
  simp [altNames, rel]

theorem relIn_selects {m : List (String × String)} {p n q k : String} {c : Ctx} :
    ((relIn p n q k).selects m c = true) ↔ 2 ≤ c.anc.length ∧ c.anc.head? = some (XName.resolve m ⟨p, n⟩) ∧
      c.e.tag = XName.resolve m ⟨q, k⟩ := by
  unfold relIn XAlt.selects
  simp only [XPred.holds, Bool.and_true, Bool.false_or, Bool.and_eq_true, decide_eq_true_eq]
  constructor
  · rintro ⟨h1, h2, h3⟩; exact ⟨h3, h2, h1⟩
  · rintro ⟨h1, h2, h3⟩; exact ⟨h3, h2, h1⟩

/-! ## Copied attributes -/

theorem attrs_get_set (as : Attrs) (k k' : QName) (v : String) :
    Attrs.get? (Attrs.set as k v) k' = if k = k' then some v else Attrs.get? as k' := by
  induction as with
  | nil => simp [Attrs.set, Attrs.get?]
  | cons x xs ih =>
    obtain ⟨a, b⟩ := x
    simp only [Attrs.set]
    by_cases h : a = k
    · subst h
      rw [if_pos rfl]
      simp only [Attrs.get?]
      split <;> rfl
    · rw [if_neg h]
      simp only [Attrs.get?, ih]
      by_cases h' : a = k'
      · subst h'
        rw [if_pos rfl, if_pos rfl, if_neg (fun e => h e.symm)]
      · rw [if_neg h', if_neg h']

theorem attrs_get_updateAll : ∀ (bs as : Attrs) (k : QName), (bs.map (·.1)).Nodup →
    Attrs.get? (Attrs.updateAll as bs) k = (Attrs.get? bs k).or (Attrs.get? as k)
  | [], as, k, _ => by simp [Attrs.updateAll, Attrs.get?]
  | (a, b) :: bs, as, k, h => by
    simp only [List.map_cons, List.nodup_cons] at h
    have ih := attrs_get_updateAll bs (Attrs.set as a b) k h.2
    simp only [Attrs.updateAll, List.foldl_cons] at ih ⊢
    rw [ih, attrs_get_set]
    simp only [Attrs.get?]
    by_cases hk : a = k
    · subst hk
      have : Attrs.get? bs a = none := by
        clear ih
        induction bs with
        | nil => rfl
        | cons x xs ih' =>
          obtain ⟨c, d⟩ := x
          simp only [List.map_cons, List.mem_cons, not_or, List.nodup_cons] at h
          simp only [Attrs.get?]
          rw [if_neg (fun e => h.1.1 e.symm)]
          exact ih' ⟨h.1.2, h.2.2⟩
      simp [this]
    · simp [hk]

theorem attrs_updateAll_nodup : ∀ (bs as : Attrs), ((as ++ bs).map (·.1)).Nodup → Attrs.updateAll as bs = as ++ bs
  | [], as, _ => by simp [Attrs.updateAll]
  | (a, b) :: bs, as, h => by
    have hs : Attrs.set as a b = as ++ [(a, b)] := by
      have hn : ∀ x ∈ as, x.1 ≠ a := by
        intro x hx e
        rw [List.map_append, List.nodup_append] at h
        exact h.2.2 x.1 (List.mem_map.2 ⟨x, hx, rfl⟩) a (by simp) e
      clear h
      induction as with
      | nil => rfl
      | cons x xs ih =>
        obtain ⟨c, d⟩ := x
        simp only [Attrs.set]
        rw [if_neg (hn (c, d) (by simp)), ih (fun y hy => hn y (by simp [hy]))]
        rfl
    have ih := attrs_updateAll_nodup bs (as ++ [(a, b)]) (by simpa using h)
    simp only [Attrs.updateAll, List.foldl_cons, hs] at ih ⊢
    rw [ih]; simp

/-! ## Documents related element by element -/

mutual
/-- The same tree of nodes, with related elements at the same places; comments are the same. -/
def Node.Rel (P : Elem → Elem → Prop) : Node → Node → Prop
  | .elem e ks, .elem e' ks' => P e e' ∧ Node.Rels P ks ks'
  | .other c t, .other c' t' => c' = c ∧ t' = t
  | .elem _ _, .other _ _ => False
  | .other _ _, .elem _ _ => False
/-- `Rel` child by child. -/
def Node.Rels (P : Elem → Elem → Prop) : List Node → List Node → Prop
  | [], [] => True
  | k :: ks, k' :: ks' => Node.Rel P k k' ∧ Node.Rels P ks ks'
  | [], _ :: _ => False
  | _ :: _, [] => False
end

mutual
theorem rel_mapCtx {P : Elem → Elem → Prop} {F : Ctx → Elem} (hF : ∀ c, P c.e (F c)) (pos : Pos) (env : NsMap)
    (anc : List QName) : ∀ t : Node, Node.Rel P t (t.mapCtx F pos env anc)
  | .other _ _ => by simp only [Node.mapCtx, Node.Rel]; exact ⟨trivial, trivial⟩
  | .elem e ks => by
    simp only [Node.mapCtx, Node.Rel]
    exact ⟨hF ⟨pos, e.decls ++ env, anc, e, ks⟩, rels_mapCtxs hF _ _ _ _ ks⟩
theorem rels_mapCtxs {P : Elem → Elem → Prop} {F : Ctx → Elem} (hF : ∀ c, P c.e (F c)) (pos : Pos) (i : Nat)
    (env : NsMap) (anc : List QName) : ∀ ks : List Node, Node.Rels P ks (Node.mapCtxs F pos i env anc ks)
  | [] => by simp [Node.mapCtxs, Node.Rels]
  | k :: ks => by
    simp only [Node.mapCtxs, Node.Rels]
    exact ⟨rel_mapCtx hF _ _ _ k, rels_mapCtxs hF _ _ _ _ ks⟩
end

mutual
theorem Node.Rel.comp {P Q R : Elem → Elem → Prop} (hR : ∀ a b c, P a b → Q b c → R a c) : ∀ {a b c : Node},
    Node.Rel P a b → Node.Rel Q b c → Node.Rel R a c
  | .elem _ ks, .elem _ ks', .elem _ ks'', h, h' => by
    simp only [Node.Rel] at h h' ⊢
    exact ⟨hR _ _ _ h.1 h'.1, Node.Rels.comp hR h.2 h'.2⟩
  | .other _ _, .other _ _, .other _ _, h, h' => by
    simp only [Node.Rel] at h h' ⊢
    exact ⟨h'.1.trans h.1, h'.2.trans h.2⟩
  | .elem _ _, .other _ _, _, h, _ => by simp only [Node.Rel] at h
  | .other _ _, .elem _ _, _, h, _ => by simp only [Node.Rel] at h
  | .elem _ _, .elem _ _, .other _ _, _, h' => by simp only [Node.Rel] at h'
  | .other _ _, .other _ _, .elem _ _, _, h' => by simp only [Node.Rel] at h'
theorem Node.Rels.comp {P Q R : Elem → Elem → Prop} (hR : ∀ a b c, P a b → Q b c → R a c) : ∀ {a b c : List Node},
    Node.Rels P a b → Node.Rels Q b c → Node.Rels R a c
  | [], [], [], _, _ => by simp [Node.Rels]
  | _ :: _, _ :: _, _ :: _, h, h' => by
    simp only [Node.Rels] at h h' ⊢
    exact ⟨Node.Rel.comp hR h.1 h'.1, Node.Rels.comp hR h.2 h'.2⟩
  | [], _ :: _, _, h, _ => by simp only [Node.Rels] at h
  | _ :: _, [], _, h, _ => by simp only [Node.Rels] at h
  | [], [], _ :: _, _, h' => by simp only [Node.Rels] at h'
  | _ :: _, _ :: _, [], _, h' => by simp only [Node.Rels] at h'
end

mutual
theorem rel_walk {P : Elem → Elem → Prop} {pos : Pos} {env env' : NsMap} {anc anc' : List QName}
    (hl : anc'.length = anc.length) : ∀ {a b : Node}, Node.Rel P a b → ∀ c' ∈ b.walk pos env' anc', ∃ c ∈ a.walk pos env anc,
      c'.pos = c.pos ∧ c'.anc.length = c.anc.length ∧ P c.e c'.e ∧ Node.Rels P c.kids c'.kids
  | .elem e ks, .elem e' ks', h, c', hc => by
    simp only [Node.Rel] at h
    simp only [Node.walk, List.mem_cons] at hc
    rcases hc with rfl | hc
    · exact ⟨⟨pos, e.decls ++ env, anc, e, ks⟩, by simp [Node.walk], rfl, hl, h.1, h.2⟩
    · obtain ⟨c, h1, h2⟩ := rels_walks (anc := e.tag :: anc) (env := e.decls ++ env) (by simp [hl]) h.2 c' hc
      exact ⟨c, by simp [Node.walk, h1], h2⟩
  | .other _ _, .other _ _, _, c', hc => by simp [Node.walk] at hc
  | .elem _ _, .other _ _, h, _, _ => by simp only [Node.Rel] at h
  | .other _ _, .elem _ _, h, _, _ => by simp only [Node.Rel] at h
theorem rels_walks {P : Elem → Elem → Prop} {pos : Pos} {i : Nat} {env env' : NsMap} {anc anc' : List QName}
    (hl : anc'.length = anc.length) : ∀ {a b : List Node}, Node.Rels P a b → ∀ c' ∈ Node.walks pos i env' anc' b,
      ∃ c ∈ Node.walks pos i env anc a,
      c'.pos = c.pos ∧ c'.anc.length = c.anc.length ∧ P c.e c'.e ∧ Node.Rels P c.kids c'.kids
  | [], [], _, c', hc => by simp [Node.walks] at hc
  | k :: ks, k' :: ks', h, c', hc => by
    simp only [Node.Rels] at h
    simp only [Node.walks, List.mem_append] at hc
    rcases hc with hc | hc
    · obtain ⟨c, h1, h2⟩ := rel_walk (env := env) hl h.1 c' hc
      exact ⟨c, by simp [Node.walks, h1], h2⟩
    · obtain ⟨c, h1, h2⟩ := rels_walks (env := env) hl h.2 c' hc
      exact ⟨c, by simp [Node.walks, h1], h2⟩
  | [], _ :: _, h, _, _ => by simp only [Node.Rels] at h
  | _ :: _, [], h, _, _ => by simp only [Node.Rels] at h
end

theorem rel_elems {P : Elem → Elem → Prop} {a b : Node} (h : Node.Rel P a b) {c' : Ctx} (hc : c' ∈ b.elems) : ∃ c ∈ a.elems,
    c'.pos = c.pos ∧ c'.anc.length = c.anc.length ∧ P c.e c'.e ∧ Node.Rels P c.kids c'.kids := rel_walk rfl h c' hc

mutual
theorem rel_all {P : Elem → Elem → Prop} {A : Elem → Prop} (hA : ∀ e e', P e e' → A e → A e') : ∀ {a b : Node},
    Node.Rel P a b → a.All A → b.All A
  | .elem _ _, .elem _ _, h, ha => by
    simp only [Node.Rel] at h
    exact ⟨hA _ _ h.1 ha.1, rels_alls hA h.2 ha.2⟩
  | .other _ _, .other _ _, _, _ => by simp [Node.All]
  | .elem _ _, .other _ _, h, _ => by simp only [Node.Rel] at h
  | .other _ _, .elem _ _, h, _ => by simp only [Node.Rel] at h
theorem rels_alls {P : Elem → Elem → Prop} {A : Elem → Prop} (hA : ∀ e e', P e e' → A e → A e') : ∀ {a b : List Node},
    Node.Rels P a b → Node.Alls A a → Node.Alls A b
  | [], [], _, _ => by simp [Node.Alls]
  | _ :: _, _ :: _, h, ha => by
    simp only [Node.Rels] at h
    exact ⟨rel_all hA h.1 ha.1, rels_alls hA h.2 ha.2⟩
  | [], _ :: _, h, _ => by simp only [Node.Rels] at h
  | _ :: _, [], h, _ => by simp only [Node.Rels] at h
end

theorem rels_length {P : Elem → Elem → Prop} : ∀ {a b : List Node}, Node.Rels P a b → b.length = a.length
  | [], [], _ => rfl
  | _ :: _, _ :: _, h => by simp only [Node.Rels] at h; simp [rels_length h.2]
  | [], _ :: _, h => by simp only [Node.Rels] at h
  | _ :: _, [], h => by simp only [Node.Rels] at h

theorem rels_mem {P : Elem → Elem → Prop} : ∀ {a b : List Node}, Node.Rels P a b → ∀ {e' ks'}, Node.elem e' ks' ∈ b →
    ∃ e ks, Node.elem e ks ∈ a ∧ P e e'
  | [], [], _, _, _, h => by simp at h
  | .elem e ks :: _, k' :: _, hr, e', ks', h => by
    simp only [Node.Rels] at hr
    rcases List.mem_cons.1 h with rfl | h
    · simp only [Node.Rel] at hr; exact ⟨e, ks, by simp, hr.1.1⟩
    · obtain ⟨e2, ks2, h1, h2⟩ := rels_mem hr.2 h
      exact ⟨e2, ks2, by simp [h1], h2⟩
  | .other c t :: _, k' :: _, hr, e', ks', h => by
    simp only [Node.Rels] at hr
    rcases List.mem_cons.1 h with rfl | h
    · simp only [Node.Rel] at hr; exact hr.1.elim
    · obtain ⟨e2, ks2, h1, h2⟩ := rels_mem hr.2 h
      exact ⟨e2, ks2, by simp [h1], h2⟩
  | [], _ :: _, h, _, _, _ => by simp only [Node.Rels] at h
  | _ :: _, [], h, _, _, _ => by simp only [Node.Rels] at h

theorem substCtxs_length {R : Ctx → Option Node} {pos : Pos} {env : NsMap} {anc : List QName} : ∀ {ks : List Node} {i : Nat},
    (Node.substCtxs R pos i env anc ks).length = ks.length
  | [], _ => by simp [Node.substCtxs]
  | k :: ks, i => by simp [Node.substCtxs, substCtxs_length (ks := ks)]

theorem substCtxs_mem {R : Ctx → Option Node} {pos : Pos} {env : NsMap} {anc : List QName} : ∀ {ks : List Node} {i : Nat} {k' : Node},
    k' ∈ Node.substCtxs R pos i env anc ks → ∃ (j : Nat) (k : Node), ks[j]? = some k ∧ k' = k.substCtx R ((i + j) :: pos) env anc
  | [], _, _, h => by simp [Node.substCtxs] at h
  | k :: ks, i, k', h => by
    simp only [Node.substCtxs, List.mem_cons] at h
    rcases h with rfl | h
    · exact ⟨0, k, by simp, rfl⟩
    · obtain ⟨j, k2, h1, h2⟩ := substCtxs_mem h
      exact ⟨j + 1, k2, by simpa using h1, by rw [h2, Nat.add_right_comm, Nat.add_assoc]⟩

/-! ## Elements of a document with replacements -/

mutual
theorem all_substCtx {P : Elem → Prop} {R : Ctx → Option Node} {pos : Pos} {env : NsMap} {anc : List QName} : ∀ (t : Node),
    (∀ c ∈ t.walk pos env anc, ∀ n, R c = some n → c.node.All P → n.All P) → t.All P → (t.substCtx R pos env anc).All P
  | .other _ _, _, h => by simpa [Node.substCtx] using h
  | .elem e ks, hR, h => by
    simp only [Node.substCtx]
    split
    · next n hn => exact hR ⟨pos, e.decls ++ env, anc, e, ks⟩ (by simp [Node.walk]) n hn h
    · exact ⟨h.1, alls_substCtxs ks (fun c hc => hR c (by simp [Node.walk, hc])) h.2⟩
theorem alls_substCtxs {P : Elem → Prop} {R : Ctx → Option Node} {pos : Pos} {i : Nat} {env : NsMap} {anc : List QName} :
    ∀ (ks : List Node), (∀ c ∈ Node.walks pos i env anc ks, ∀ n, R c = some n → c.node.All P → n.All P) → Node.Alls P ks →
    Node.Alls P (Node.substCtxs R pos i env anc ks)
  | [], _, h => by simpa [Node.substCtxs] using h
  | k :: ks, hR, h => by
    simp only [Node.substCtxs]
    exact ⟨all_substCtx k (fun c hc => hR c (by simp [Node.walks, hc])) h.1,
      alls_substCtxs ks (fun c hc => hR c (by simp [Node.walks, hc])) h.2⟩
end

/-- An element of the new document is an old one (with replacements inside), or in one of the new nodes. -/
theorem Replaced.elems {Sel : Ctx → Prop} {Q : Ctx → Node → Prop} {t t' : Node} (h : Replaced Sel Q t t') {c' : Ctx}
    (hc : c' ∈ t'.elems) :
    (∃ c ∈ t.elems, c'.e = c.e ∧ c'.pos = c.pos ∧ c'.anc = c.anc ∧ c'.env = c.env ∧ (c.anc ≠ [] → ¬ Sel c) ∧
      c'.kids.length = c.kids.length ∧
      (∀ e' ks', Node.elem e' ks' ∈ c'.kids → ∃ i e ks, c.kids[i]? = some (.elem e ks) ∧
        ((e' = e ∧ ¬ Sel ⟨i :: c.pos, e.decls ++ c.env, c.e.tag :: c.anc, e, ks⟩) ∨
          Sel ⟨i :: c.pos, e.decls ++ c.env, c.e.tag :: c.anc, e, ks⟩ ∧
          Q ⟨i :: c.pos, e.decls ++ c.env, c.e.tag :: c.anc, e, ks⟩ (.elem e' ks'))) ∧
      (∀ P : Elem → Prop, Node.Alls P c.kids → (∀ d ∈ t.elems, ∀ n, Sel d → Q d n → d.node.All P → n.All P) →
        Node.Alls P c'.kids)) ∨
    (∃ c ∈ t.elems, c.anc ≠ [] ∧ Sel c ∧ ∃ n env0, Q c n ∧ c.env = c.e.decls ++ env0 ∧ c' ∈ n.walk c.pos env0 c.anc) := by
  obtain ⟨R, h1, h2, rfl⟩ := h
  have hnone : ∀ c ∈ t.elems, (if c.anc.isEmpty then none else R c) = none → c.anc ≠ [] → ¬ Sel c := by
    intro c hm hn ha hs
    obtain ⟨n, hn', _⟩ := h1 c hm hs
    rw [if_neg (by simpa using ha), hn'] at hn
    cases hn
  have hsome : ∀ c ∈ t.elems, ∀ n, (if c.anc.isEmpty then none else R c) = some n → c.anc ≠ [] ∧ Sel c ∧ Q c n := by
    intro c hm n hn
    split at hn
    · cases hn
    · next ha =>
      have ha : c.anc ≠ [] := by simpa using ha
      rcases Classical.em (Sel c) with hs | hs
      · obtain ⟨n', hn', hq⟩ := h1 c hm hs
        rw [hn'] at hn
        cases hn
        exact ⟨ha, hs, hq⟩
      · rw [h2 c hm hs] at hn; cases hn
  rcases mem_walk_substCtx t c' hc with ⟨c, hm, hn, rfl⟩ | ⟨c, hm, n, env0, hn, he, hw⟩
  · left
    refine ⟨c, hm, rfl, rfl, rfl, rfl, hnone c hm hn, substCtxs_length, ?_, ?_⟩
    rotate_left
    · intro P hP hq
      exact alls_substCtxs c.kids (fun d hd n hn hP => by
        have hd' := elems_below hm hd
        obtain ⟨_, h4, h5⟩ := hsome d hd' n hn
        exact hq d hd' n h4 h5 hP) hP
    intro e' ks' hk
    obtain ⟨j, k, hj, hk'⟩ := substCtxs_mem hk
    rw [Nat.zero_add] at hk'
    cases k with
    | other _ _ => simp [Node.substCtx] at hk'
    | elem e ks =>
      have hw := walk_child t c hm j e ks hj
      refine ⟨j, e, ks, hj, ?_⟩
      simp only [Node.substCtx] at hk'
      split at hk'
      · next n hn' =>
        obtain ⟨_, h5, h6⟩ := hsome _ hw n hn'
        rw [← hk'] at h6
        exact Or.inr ⟨h5, h6⟩
      · next hn' =>
        cases hk'
        exact Or.inl ⟨rfl, hnone _ hw hn' (by simp)⟩
  · right
    obtain ⟨h3, h4, h5⟩ := hsome c hm n hn
    exact ⟨c, hm, h3, h4, n, env0, h5, he, hw⟩

mutual
theorem substCtx_none {R : Ctx → Option Node} {pos : Pos} {env : NsMap} {anc : List QName} : ∀ (t : Node),
    (∀ c ∈ t.walk pos env anc, R c = none) → t.substCtx R pos env anc = t
  | .other _ _, _ => by simp [Node.substCtx]
  | .elem e ks, h => by
    simp only [Node.substCtx]
    rw [h ⟨pos, e.decls ++ env, anc, e, ks⟩ (by simp [Node.walk])]
    simp only
    rw [substCtxs_none ks (fun c hc => h c (by simp [Node.walk, hc]))]
theorem substCtxs_none {R : Ctx → Option Node} {pos : Pos} {i : Nat} {env : NsMap} {anc : List QName} : ∀ (ks : List Node),
    (∀ c ∈ Node.walks pos i env anc ks, R c = none) → Node.substCtxs R pos i env anc ks = ks
  | [], _ => by simp [Node.substCtxs]
  | k :: ks, h => by
    simp only [Node.substCtxs]
    rw [substCtx_none k (fun c hc => h c (by simp [Node.walks, hc])),
      substCtxs_none ks (fun c hc => h c (by simp [Node.walks, hc]))]
end

theorem Replaced.none {Sel : Ctx → Prop} {Q : Ctx → Node → Prop} {t t' : Node} (h : Replaced Sel Q t t')
    (hs : ∀ c ∈ t.elems, ¬ Sel c) : t' = t := by
  obtain ⟨R, _, h2, rfl⟩ := h
  apply substCtx_none
  intro c hc
  split
  · rfl
  · exact h2 c hc (hs c hc)

theorem mapCtxs_mem {F : Ctx → Elem} {pos : Pos} {env : NsMap} {anc : List QName} : ∀ {ks : List Node} {i : Nat} {e' : Elem}
    {ks' : List Node}, Node.elem e' ks' ∈ Node.mapCtxs F pos i env anc ks → ∃ (j : Nat) (e : Elem) (es : List Node),
      ks[j]? = some (.elem e es) ∧ e' = F ⟨(i + j) :: pos, e.decls ++ env, anc, e, es⟩
  | [], _, _, _, h => by simp [Node.mapCtxs] at h
  | .other c t :: ks, i, e', ks', h => by
    simp only [Node.mapCtxs, Node.mapCtx, List.mem_cons, reduceCtorEq, false_or] at h
    obtain ⟨j, e, es, h1, h2⟩ := mapCtxs_mem h
    exact ⟨j + 1, e, es, by simpa using h1, by rw [h2, Nat.add_right_comm, Nat.add_assoc]⟩
  | .elem e0 es0 :: ks, i, e', ks', h => by
    simp only [Node.mapCtxs, Node.mapCtx, List.mem_cons, Node.elem.injEq] at h
    rcases h with ⟨h, _⟩ | h
    · exact ⟨0, e0, es0, by simp, h⟩
    · obtain ⟨j, e, es, h1, h2⟩ := mapCtxs_mem h
      exact ⟨j + 1, e, es, by simpa using h1, by rw [h2, Nat.add_right_comm, Nat.add_assoc]⟩

theorem mapCtxs_count {F : Ctx → Elem} {pos : Pos} {env : NsMap} {anc : List QName} : ∀ {ks : List Node} {i : Nat},
    (Node.mapCtxs F pos i env anc ks).length = ks.length
  | [], _ => by simp [Node.mapCtxs]
  | k :: ks, i => by simp [Node.mapCtxs, mapCtxs_count (ks := ks)]

theorem Replaced.root {Sel : Ctx → Prop} {Q : Ctx → Node → Prop} {t t' : Node} (h : Replaced Sel Q t t') :
    t'.root? = t.root? := by
  obtain ⟨R, _, _, rfl⟩ := h
  cases t with
  | other _ _ => rfl
  | elem e ks => simp [Node.substCtx, Node.root?]

theorem Replaced.all {Sel : Ctx → Prop} {Q : Ctx → Node → Prop} {t t' : Node} (h : Replaced Sel Q t t') {P : Elem → Prop}
    (ht : t.All P) (hq : ∀ c n, c.node.All P → Q c n → n.All P) : t'.All P := by
  rw [all_elems]
  intro c' hc'
  rcases h.elems hc' with ⟨c, hm, he, _⟩ | ⟨c, hm, _, _, n, env0, hn, _, hw⟩
  · rw [he]; exact all_elems.1 ht c hm
  · exact (all_iff _ _ _ n).1 (hq c n (all_of_walk t ht c hm) hn) c' hw

/-! ## Replacing the parents -/

theorem posLookup_some {l : List (Pos × Node)} {p : Pos} {n : Node} (h : (p, n) ∈ l) : ∃ n', posLookup l p = some n' := by
  induction l with
  | nil => simp at h
  | cons x xs ih =>
    obtain ⟨q, m⟩ := x
    simp only [posLookup]
    split
    · exact ⟨m, rfl⟩
    · next hq =>
      rcases List.mem_cons.1 h with h | h
      · cases h; exact absurd rfl hq
      · exact ih h

theorem translate_parent {p n q k : String} {m : List (String × String)} {tag : QName} {t t' : Node}
    (h : (⟨[relIn p n q k], m, .parent (fun c => .ok (copyRetag tag c.e c.kids))⟩ : Trans).translate t = .ok t') :
    Replaced (fun c => c.anc ≠ [] ∧ c.e.tag = XName.resolve m ⟨p, n⟩ ∧
        ∃ e ks, Node.elem e ks ∈ c.kids ∧ e.tag = XName.resolve m ⟨q, k⟩)
      (fun c x => ∃ e ks, Node.elem e ks ∈ c.kids ∧ e.tag = XName.resolve m ⟨q, k⟩ ∧ x = .elem { e with tag := tag } ks) t t' := by
  simp only [Trans.translate] at h
  split at h
  · cases h
  · next l hl =>
    simp only [Except.ok.injEq] at h
    have hl' := (mapE_eq hl).2 (fun c => (c.pos.tail, copyRetag tag c.e c.kids)) (fun c b hb => by
      obtain ⟨n, hn, hb'⟩ := except_map_ok hb
      cases hn
      exact hb')
    have hm : ∀ r x, (r, x) ∈ l ↔ ∃ d ∈ t.elems, (2 ≤ d.anc.length ∧ d.anc.head? = some (XName.resolve m ⟨p, n⟩) ∧
        d.e.tag = XName.resolve m ⟨q, k⟩) ∧ d.pos.tail = r ∧ copyRetag tag d.e d.kids = x := by
      intro r x
      rw [hl', List.mem_map]
      constructor
      · rintro ⟨d, hd, he⟩
        obtain ⟨h1, h2⟩ := List.mem_filter.1 hd
        simp only [List.any_cons, List.any_nil, Bool.or_false] at h2
        cases he
        exact ⟨d, h1, relIn_selects.1 h2, rfl, rfl⟩
      · rintro ⟨d, h1, h2, rfl, rfl⟩
        refine ⟨d, List.mem_filter.2 ⟨h1, ?_⟩, rfl⟩
        simp only [List.any_cons, List.any_nil, Bool.or_false]
        exact relIn_selects.2 h2
    have hpar : ∀ c ∈ t.elems, ∀ d ∈ t.elems, (2 ≤ d.anc.length ∧ d.anc.head? = some (XName.resolve m ⟨p, n⟩) ∧
        d.e.tag = XName.resolve m ⟨q, k⟩) → d.pos.tail = c.pos → c.anc ≠ [] ∧ c.e.tag = XName.resolve m ⟨p, n⟩ ∧
          Node.elem d.e d.kids ∈ c.kids ∧ d.e.tag = XName.resolve m ⟨q, k⟩ := by
      rintro c hc d hd ⟨h2, h3, h4⟩ hp
      obtain ⟨c', hc', i, hi⟩ := elems_parent hd (fun e => by rw [e] at h2; simp at h2)
      have : c' = c := elems_pos_inj hc' hc (by rw [← hp, hi.1]; rfl)
      subst this
      have h5 := hi.2.2.1
      rw [h5] at h2 h3
      simp only [List.length_cons, List.head?_cons, Option.some.injEq] at h2 h3
      exact ⟨fun e => by rw [e] at h2; simp at h2, h3, List.mem_of_getElem? hi.2.2.2, h4⟩
    refine ⟨fun c => posLookup l c.pos, ?_, ?_, ?_⟩
    · rintro c hc ⟨h1, h2, e, ks, h3, h4⟩
      obtain ⟨i, hi⟩ := List.mem_iff_getElem?.1 h3
      have hw := walk_child t c hc i e ks hi
      have hmem := (hm c.pos (copyRetag tag e ks)).2 ⟨_, hw, ⟨by
        simp only [List.length_cons]
        have := List.length_pos_iff.2 h1
        omega, by simp [h2], h4⟩, rfl, rfl⟩
      obtain ⟨x, hx⟩ := posLookup_some hmem
      obtain ⟨d, hd, h8, h9, h10⟩ := (hm _ _).1 (posLookup_mem hx)
      obtain ⟨_, _, g3, g4⟩ := hpar c hc d hd h8 h9
      exact ⟨x, hx, d.e, d.kids, g3, g4, h10.symm⟩
    · intro c hc hn
      apply posLookup_none
      intro hmem
      obtain ⟨⟨r, x⟩, hx, hx'⟩ := List.mem_map.1 hmem
      obtain ⟨d, hd, h3, h4, h5⟩ := (hm r x).1 hx
      obtain ⟨g1, g2, g3, g4⟩ := hpar c hc d hd h3 (by rw [h4]; exact hx')
      exact hn ⟨g1, g2, _, _, g3, g4⟩
    · rw [← h]
      apply subst_eq_substCtx
      intro c hc
      have hr := elems_root_iff (t := t) (c := c) hc
      by_cases h0 : c.pos = []
      · simp [h0, hr.1 h0]
      · have h1 : c.anc ≠ [] := fun h => h0 (hr.2 h)
        have h2 : c.anc.isEmpty = false := by simpa using h1
        simp only [h0, if_false, h2, Bool.false_eq_true]

end Ramrod

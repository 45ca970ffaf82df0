import Verif.Lemmas.Root
import Verif.Lemmas.Attrs
/-!
# Passes as whole-document edits
-/

namespace Ramrod

/-! ## Generalities about `mapCtx` -/

mutual
theorem mapCtx_congr {F G : Ctx → Elem} (pos : Pos) (env : NsMap) (anc : List QName) : ∀ (t : Node),
    (∀ c ∈ t.walk pos env anc, F c = G c) → t.mapCtx F pos env anc = t.mapCtx G pos env anc
  | .other _ _, _ => by simp [Node.mapCtx]
  | .elem e ks, H => by
    simp only [Node.mapCtx]
    rw [mapCtxs_congr pos 0 (e.decls ++ env) (e.tag :: anc) ks (fun c hc => H c (by simp [Node.walk, hc])),
      H ⟨pos, e.decls ++ env, anc, e, ks⟩ (by simp [Node.walk])]
theorem mapCtxs_congr {F G : Ctx → Elem} (pos : Pos) (i : Nat) (env : NsMap) (anc : List QName) :
    ∀ (ks : List Node), (∀ c ∈ Node.walks pos i env anc ks, F c = G c) →
    Node.mapCtxs F pos i env anc ks = Node.mapCtxs G pos i env anc ks
  | [], _ => by simp [Node.mapCtxs]
  | k :: ks, H => by
    simp only [Node.mapCtxs]
    rw [mapCtx_congr (i :: pos) env anc k (fun c hc => H c (by simp [Node.walks, hc])),
      mapCtxs_congr pos (i + 1) env anc ks (fun c hc => H c (by simp [Node.walks, hc]))]
end

mutual
theorem mapCtx_id (pos : Pos) (env : NsMap) (anc : List QName) : ∀ (t : Node),
    t.mapCtx (fun c => c.e) pos env anc = t
  | .other _ _ => by simp [Node.mapCtx]
  | .elem e ks => by simp [Node.mapCtx, mapCtxs_id pos 0 (e.decls ++ env) (e.tag :: anc) ks]
theorem mapCtxs_id (pos : Pos) (i : Nat) (env : NsMap) (anc : List QName) : ∀ (ks : List Node),
    Node.mapCtxs (fun c => c.e) pos i env anc ks = ks
  | [] => by simp [Node.mapCtxs]
  | k :: ks => by simp [Node.mapCtxs, mapCtx_id (i :: pos) env anc k, mapCtxs_id pos (i + 1) env anc ks]
end

theorem edit_congr {F G : Ctx → Elem} {t : Node} (h : ∀ c ∈ t.elems, F c = G c) : t.edit F = t.edit G :=
  mapCtx_congr _ _ _ t h

theorem edit_self {F : Ctx → Elem} {t : Node} (h : ∀ c ∈ t.elems, F c = c.e) : t.edit F = t := by
  rw [edit_congr h]; exact mapCtx_id _ _ _ t

/-- The edit keeps tags and namespace declarations. -/
def Keeps (F : Ctx → Elem) : Prop := ∀ c, (F c).tag = c.e.tag ∧ (F c).decls = c.e.decls

/-- The context of the same element after an edit. -/
def Ctx.upd (F : Ctx → Elem) (c : Ctx) : Ctx :=
  { c with e := F c, kids := Node.mapCtxs F c.pos 0 c.env (c.e.tag :: c.anc) c.kids }

mutual
theorem walk_mapCtx {F : Ctx → Elem} (hF : Keeps F) (pos : Pos) (env : NsMap) (anc : List QName) : ∀ (t : Node),
    (t.mapCtx F pos env anc).walk pos env anc = (t.walk pos env anc).map (Ctx.upd F)
  | .other _ _ => by simp [Node.mapCtx, Node.walk]
  | .elem e ks => by
    simp only [Node.mapCtx, Node.walk, List.map_cons, Ctx.upd]
    obtain ⟨h1, h2⟩ := hF ⟨pos, e.decls ++ env, anc, e, ks⟩
    simp only at h1 h2
    rw [h1, h2, walks_mapCtxs hF pos 0 (e.decls ++ env) (e.tag :: anc) ks]
theorem walks_mapCtxs {F : Ctx → Elem} (hF : Keeps F) (pos : Pos) (i : Nat) (env : NsMap) (anc : List QName) :
    ∀ (ks : List Node), Node.walks pos i env anc (Node.mapCtxs F pos i env anc ks) =
      (Node.walks pos i env anc ks).map (Ctx.upd F)
  | [] => by simp [Node.mapCtxs, Node.walks]
  | k :: ks => by
    simp only [Node.mapCtxs, Node.walks, List.map_append]
    rw [walk_mapCtx hF (i :: pos) env anc k, walks_mapCtxs hF pos (i + 1) env anc ks]
end

theorem elems_edit {F : Ctx → Elem} (hF : Keeps F) (t : Node) : (t.edit F).elems = t.elems.map (Ctx.upd F) :=
  walk_mapCtx hF _ _ _ t

theorem descs_edit {F : Ctx → Elem} (hF : Keeps F) (t : Node) : (t.edit F).descs = t.descs.map (Ctx.upd F) := by
  unfold Node.descs; rw [elems_edit hF]; simp

mutual
theorem mapCtx_mapCtx {F G : Ctx → Elem} (hF : Keeps F) (pos : Pos) (env : NsMap) (anc : List QName) :
    ∀ (t : Node), (t.mapCtx F pos env anc).mapCtx G pos env anc = t.mapCtx (fun c => G (c.upd F)) pos env anc
  | .other _ _ => by simp [Node.mapCtx]
  | .elem e ks => by
    simp only [Node.mapCtx, Ctx.upd]
    obtain ⟨h1, h2⟩ := hF ⟨pos, e.decls ++ env, anc, e, ks⟩
    simp only at h1 h2
    rw [h1, h2, mapCtxs_mapCtxs hF pos 0 (e.decls ++ env) (e.tag :: anc) ks]
    rfl
theorem mapCtxs_mapCtxs {F G : Ctx → Elem} (hF : Keeps F) (pos : Pos) (i : Nat) (env : NsMap) (anc : List QName) :
    ∀ (ks : List Node), Node.mapCtxs G pos i env anc (Node.mapCtxs F pos i env anc ks) =
      Node.mapCtxs (fun c => G (c.upd F)) pos i env anc ks
  | [] => by simp [Node.mapCtxs]
  | k :: ks => by
    simp only [Node.mapCtxs]
    rw [mapCtx_mapCtx hF (i :: pos) env anc k, mapCtxs_mapCtxs hF pos (i + 1) env anc ks]
end

theorem edit_edit {F G : Ctx → Elem} (hF : Keeps F) (t : Node) :
    (t.edit F).edit G = t.edit (fun c => G (c.upd F)) := mapCtx_mapCtx hF _ _ _ t

theorem Keeps.comp {F G : Ctx → Elem} (hF : Keeps F) (hG : Keeps G) : Keeps (fun c => G (c.upd F)) := fun c =>
  ⟨(hG _).1.trans (hF c).1, (hG _).2.trans (hF c).2⟩

theorem Keeps.ite {sel : Ctx → Bool} {g : Elem → Elem} (h : ∀ e, (g e).tag = e.tag ∧ (g e).decls = e.decls) :
    Keeps (fun c => if sel c then g c.e else c.e) := by
  intro c
  by_cases hs : sel c = true
  · simp only [hs, if_true]; exact h c.e
  · simp [hs]

/-! ## The passes -/

theorem walks_anc_ne {c : Ctx} {e : Elem} {ks : List Node} (hc : c ∈ Node.walks [] 0 (e.decls ++ []) [e.tag] ks) :
    c.anc.isEmpty = false := by
  rw [← descs_elem] at hc
  have := descs_anc_ne _ hc
  simpa using this

/-- `_update_schemalocs` as an edit. -/
def schemalocEdit (u : Cls) (c : Ctx) : Elem := if c.anc.isEmpty then u.updateSchemalocsElem c.e else c.e

theorem keeps_schemaloc (u : Cls) : Keeps (schemalocEdit u) :=
  Keeps.ite (fun e => ⟨updateSchemalocsElem_tag u e, updateSchemalocsElem_decls u e⟩)

theorem updateSchemalocs_eq (u : Cls) (t : Node) : u.updateSchemalocs t = t.edit (schemalocEdit u) := by
  cases t with
  | other _ _ => simp [Cls.updateSchemalocs, Node.mapCtx]
  | elem e ks =>
    simp only [Cls.updateSchemalocs, Node.mapCtx, schemalocEdit, List.isEmpty_nil, if_true]
    congr 1
    have := mapCtxs_congr (F := schemalocEdit u) (G := fun c => c.e) [] 0 (e.decls ++ []) [e.tag] ks
      (fun c hc => by simp [schemalocEdit, walks_anc_ne hc])
    rw [mapCtxs_id] at this
    exact this.symm

/-- An in-place loop over the result of an XPath. -/
theorem modifyXpath_eq (t : Node) (m : List (String × String)) (alts : List XAlt) (g : Elem → Elem) :
    t.modifyAll ((t.xpath m alts).map (·.pos)) g =
      t.edit (fun c => if alts.any (fun a => a.selects m c) then g c.e else c.e) :=
  modifyAll_filter t _ g

theorem filterE_filter {α ε : Type} {p : α → Except ε Bool} : ∀ {l r : List α}, filterE p l = .ok r →
    (∀ a ∈ l, ∃ b, p a = .ok b) ∧ r = l.filter (fun a => match p a with | .ok b => b | .error _ => false)
  | [], r, h => by simp only [filterE, Except.ok.injEq] at h; subst h; simp
  | x :: xs, r, h => by
    simp only [filterE] at h
    cases hp : p x with
    | error y => rw [hp] at h; cases h
    | ok b =>
      rw [hp] at h
      cases hf : filterE p xs with
      | error y => rw [hf] at h; cases h
      | ok r' =>
        rw [hf] at h
        simp only [Except.ok.injEq] at h
        obtain ⟨h1, h2⟩ := filterE_filter hf
        subst h
        refine ⟨?_, ?_⟩
        · intro a ha
          rcases List.mem_cons.1 ha with rfl | ha
          · exact ⟨b, hp⟩
          · exact h1 a ha
        · cases b
          · rw [List.filter_cons_of_neg (by simp [hp])]; simp [h2]
          · rw [List.filter_cons_of_pos (by simp [hp])]; simp [h2]

theorem filterE_ok {α ε : Type} {p : α → Except ε Bool} : ∀ {l : List α}, (∀ a ∈ l, ∃ b, p a = .ok b) →
    ∃ r, filterE p l = .ok r
  | [], _ => ⟨[], rfl⟩
  | x :: xs, h => by
    obtain ⟨b, hb⟩ := h x (by simp)
    obtain ⟨r, hr⟩ := filterE_ok (l := xs) (fun a ha => h a (by simp [ha]))
    exact ⟨if b then x :: r else r, by simp [filterE, hb, hr]⟩

/-- A loop that overwrites distinct elements by values computed beforehand. -/
theorem foldE_modify {g : Ctx → Except Err Elem} : ∀ (cs : List Ctx) (t t' : Node), (cs.map (·.pos)).Nodup →
    foldE (fun t c => match g c with
      | .error x => .error x
      | .ok e' => .ok (t.modifyAt c.pos (fun _ => e'))) t cs = .ok t' →
    (∀ c ∈ cs, ∃ e', g c = .ok e') ∧
    t' = t.mapPos (fun q e => match cs.find? (fun c => c.pos = q) with
      | some c => (match g c with | .ok e' => e' | .error _ => e)
      | none => e) []
  | [], t, t', _, h => by
    simp only [foldE, Except.ok.injEq] at h
    subst h
    simp [mapPos_id]
  | c :: cs, t, t', hn, h => by
    simp only [foldE] at h
    cases hg : g c with
    | error x => rw [hg] at h; cases h
    | ok e' =>
      rw [hg] at h
      simp only at h
      simp only [List.map_cons, List.nodup_cons] at hn
      obtain ⟨h1, h2⟩ := foldE_modify cs _ t' hn.2 h
      refine ⟨?_, ?_⟩
      · intro d hd
        rcases List.mem_cons.1 hd with rfl | hd
        · exact ⟨e', hg⟩
        · exact h1 d hd
      · rw [h2, Node.modifyAt, mapPos_mapPos]
        congr 1
        funext q e
        by_cases hq : c.pos = q
        · have : cs.find? (fun c => c.pos = q) = none := by
            apply List.find?_eq_none.2
            intro d hd hp
            exact hn.1 (List.mem_map.2 ⟨d, hd, by simpa [hq] using hp⟩)
          have hq' : q = c.pos := hq.symm
          simp [hq', hg]
          rw [hq'] at this
          rw [this]
        · have : ¬ q = c.pos := fun e => hq e.symm
          simp [hq, this]

theorem find_filter_pos {t : Node} {sel : Ctx → Bool} {c : Ctx} (hc : c ∈ t.elems) :
    (t.elems.filter sel).find? (fun d => d.pos = c.pos) = if sel c then some c else none := by
  by_cases hs : sel c = true
  · rw [if_pos hs]
    cases h : (t.elems.filter sel).find? (fun d => d.pos = c.pos) with
    | none =>
      exact absurd (List.find?_eq_none.1 h c (List.mem_filter.2 ⟨hc, hs⟩)) (by simp)
    | some d =>
      have hd := List.mem_of_find?_eq_some h
      have hp := List.find?_some h
      rw [elems_pos_inj (List.mem_filter.1 hd).1 hc (by simpa using hp)]
  · rw [if_neg hs]
    apply List.find?_eq_none.2
    intro d hd hp
    obtain ⟨h1, h2⟩ := List.mem_filter.1 hd
    rw [elems_pos_inj h1 hc (by simpa using hp)] at h2
    exact hs h2

theorem descs_eq_filter (t : Node) : t.descs = t.elems.filter (fun c => !c.anc.isEmpty) := by
  cases t with
  | other _ _ => simp [Node.descs, Node.elems, Node.walk]
  | elem e ks =>
    rw [elems_elem, List.filter_cons_of_neg (by simp [rootCtx])]
    symm
    apply List.filter_eq_self.2
    intro c hc
    simpa using descs_anc_ne _ hc

theorem mem_descs_iff {t : Node} {c : Ctx} : c ∈ t.descs ↔ c ∈ t.elems ∧ c.anc ≠ [] := by
  rw [descs_eq_filter]; simp

/-- Does the vocabulary apply to the element? -/
def Vocab.hit (v : Vocab) (c : Ctx) : Bool :=
  !c.anc.isEmpty && c.e.has tagXsiType && (match v.wanted c with | .ok b => b | .error _ => false)

/-- `Vocab.update` as an edit. -/
def Vocab.edit (v : Vocab) (c : Ctx) : Elem :=
  if v.hit c then (match v.updateNode c.e with | .ok e' => e' | .error _ => c.e) else c.e

theorem vocabUpdate_eq {v : Vocab} {t t' : Node} (h : v.update t = .ok t') :
    t' = t.edit v.edit ∧ (∀ c ∈ getTypedNodes t, ∃ b, v.wanted c = .ok b) ∧
    (∀ c ∈ t.elems, v.hit c = true → ∃ e', v.updateNode c.e = .ok e') := by
  simp only [Vocab.update] at h
  split at h
  · cases h
  · next found hf =>
    obtain ⟨h1, h2⟩ := filterE_filter hf
    have h3 : found = t.elems.filter v.hit := by
      rw [h2, getTypedNodes, descs_eq_filter, List.filter_filter, List.filter_filter]
      apply List.filter_congr
      intro c _
      unfold Vocab.hit
      cases c.anc.isEmpty <;> cases c.e.has tagXsiType <;> cases v.wanted c <;> simp
    rw [h3] at h
    obtain ⟨h4, h5⟩ := foldE_modify (g := fun c => v.updateNode c.e) _ _ _ (nodup_filter_pos t v.hit) h
    refine ⟨?_, h1, fun c hc hh => h4 c (List.mem_filter.2 ⟨hc, hh⟩)⟩
    rw [h5]
    apply mapPos_eq_mapCtx
    intro c hc
    rw [find_filter_pos (t := t) hc]
    unfold Vocab.edit
    by_cases hh : v.hit c = true
    · simp only [hh, if_true]
    · simp only [hh, Bool.false_eq_true, if_false]

theorem updateNode_keeps {v : Vocab} {e e' : Elem} (h : v.updateNode e = .ok e') :
    e'.tag = e.tag ∧ e'.decls = e.decls ∧ e'.tail = e.tail := by
  simp only [Vocab.updateNode] at h
  split at h
  · cases h
  · split at h
    · cases h
    · next e2 he2 =>
      have h2 : e2.tag = e.tag ∧ e2.decls = e.decls ∧ e2.tail = e.tail := by
        split at he2
        · split at he2
          · simp only [Except.ok.injEq] at he2; rw [← he2]; exact ⟨rfl, rfl, rfl⟩
          · cases he2
        · simp only [Except.ok.injEq] at he2; rw [← he2]; exact ⟨rfl, rfl, rfl⟩
      have h3 : ∀ (b : Bool) (k : QName) (s : String),
          (if b then e2.set k s else e2).tag = e.tag ∧ (if b then e2.set k s else e2).decls = e.decls ∧
          (if b then e2.set k s else e2).tail = e.tail := by
        intro b k s; cases b
        · exact h2
        · exact h2
      split at h
      · split at h
        · simp only [Except.ok.injEq] at h; rw [← h]; exact h3 _ _ _
        · simp only [Except.ok.injEq] at h; rw [← h]; exact h3 _ _ _
      · simp only [Except.ok.injEq] at h; rw [← h]; exact h3 _ _ _

theorem keeps_vocab (v : Vocab) : Keeps v.edit := by
  intro c
  unfold Vocab.edit
  split
  · split
    · next e' he => exact ⟨(updateNode_keeps he).1, (updateNode_keeps he).2.1⟩
    · exact ⟨rfl, rfl⟩
  · exact ⟨rfl, rfl⟩

/-- The vocabularies one after the other, as one edit. -/
def vocabsEdit : List Vocab → Ctx → Elem
  | [], c => c.e
  | v :: vs, c => vocabsEdit vs (c.upd v.edit)

theorem keeps_vocabs : ∀ vs : List Vocab, Keeps (vocabsEdit vs)
  | [] => fun _ => ⟨rfl, rfl⟩
  | v :: vs => (keeps_vocab v).comp (keeps_vocabs vs)

theorem updateVocabs_eq : ∀ {vs : List Vocab} {t t' : Node}, updateVocabs vs t = .ok t' →
    t' = t.edit (vocabsEdit vs)
  | [], t, t', h => by
    simp only [updateVocabs, foldE, Except.ok.injEq] at h
    rw [← h]; exact (edit_self (fun _ _ => rfl)).symm
  | v :: vs, t, t', h => by
    simp only [updateVocabs, foldE] at h
    split at h
    · cases h
    · next t1 h1 =>
      rw [updateVocabs_eq h, (vocabUpdate_eq h1).1, edit_edit (keeps_vocab v)]
      rfl

/-- Optional vocabulary pass. -/
def vocabsIfEdit (b : Bool) (vs : List Vocab) (c : Ctx) : Elem := if b then vocabsEdit vs c else c.e

theorem keeps_vocabsIf (b : Bool) (vs : List Vocab) : Keeps (vocabsIfEdit b vs) := by
  cases b
  · exact fun _ => ⟨rfl, rfl⟩
  · exact keeps_vocabs vs

theorem vocabsIf_eq {b : Bool} {vs : List Vocab} {t t' : Node}
    (h : (if b then updateVocabs vs t else .ok t) = .ok t') : t' = t.edit (vocabsIfEdit b vs) := by
  cases b with
  | true => exact updateVocabs_eq h
  | false =>
    simp only [Bool.false_eq_true, if_false, Except.ok.injEq] at h
    rw [← h]; exact (edit_self (fun _ _ => rfl)).symm

/-! ## Lists -/

/-- Number of `Object/Properties` pairs among the ancestors. -/
def propsDepth (obj prop : QName) : List QName → Nat
  | [] => 0
  | q :: qs => (if q = prop ∧ qs.head? = some obj then 1 else 0) + propsDepth obj prop qs

/-- `f` applied `n` times. -/
def iter {α : Type} (f : α → α) : Nat → α → α
  | 0, a => a
  | n + 1, a => f (iter f n a)

theorem iter_add {α : Type} (f : α → α) (m n : Nat) (a : α) : iter f m (iter f n a) = iter f (m + n) a := by
  induction m with
  | zero => simp [iter]
  | succ m ih => rw [Nat.succ_add]; simp only [iter, ih]

/-- Proper descendant, by position. -/
def below (p q : Pos) : Bool := decide (q <:+ p) && decide (q ≠ p)

mutual
theorem walk_pos_indep (env env' : NsMap) (anc anc' : List QName) (pos : Pos) : ∀ t : Node,
    (t.walk pos env anc).map (·.pos) = (t.walk pos env' anc').map (·.pos)
  | .other _ _ => by simp [Node.walk]
  | .elem e ks => by
    simp only [Node.walk, List.map_cons]
    rw [walks_pos_indep (e.decls ++ env) (e.decls ++ env') (e.tag :: anc) (e.tag :: anc') pos 0 ks]
theorem walks_pos_indep (env env' : NsMap) (anc anc' : List QName) (pos : Pos) (i : Nat) : ∀ ks : List Node,
    (Node.walks pos i env anc ks).map (·.pos) = (Node.walks pos i env' anc' ks).map (·.pos)
  | [] => by simp [Node.walks]
  | k :: ks => by
    simp only [Node.walks, List.map_append]
    rw [walk_pos_indep env env' anc anc' (i :: pos) k, walks_pos_indep env env' anc anc' pos (i + 1) ks]
end

theorem below_self_walks {pos : Pos} {i : Nat} {env : NsMap} {anc : List QName} {ks : List Node} {d : Ctx}
    (hd : d ∈ Node.walks pos i env anc ks) : below d.pos pos = true := by
  obtain ⟨l, j, _, h⟩ := walks_pos pos i env anc ks d hd
  rw [h]
  have h1 : pos <:+ l ++ j :: pos := ⟨l ++ [j], by simp⟩
  have h2 : pos ≠ l ++ j :: pos := by
    intro e; have := congrArg List.length e; simp at this; omega
  simp [below, h1, h2]

theorem below_root {pos : Pos} {env : NsMap} {anc : List QName} {t : Node} {d : Ctx}
    (hd : d ∈ t.walk pos env anc) : below pos d.pos = false := by
  obtain ⟨l, h⟩ := walk_pos pos env anc t d hd
  cases hb : below pos d.pos with
  | false => rfl
  | true =>
    simp only [below, Bool.and_eq_true, decide_eq_true_eq] at hb
    have := hb.1.length_le
    rw [h] at this hb
    simp only [List.length_append] at this
    have hl : l = [] := List.eq_nil_of_length_eq_zero (by omega)
    subst hl
    simp at hb

/-- Different children have unrelated positions. -/
theorem below_sibling {pos : Pos} {i j : Nat} {l l' : List Nat} (hij : i ≠ j) :
    below (l ++ i :: pos) (l' ++ j :: pos) = false := by
  cases hb : below (l ++ i :: pos) (l' ++ j :: pos) with
  | false => rfl
  | true =>
    simp only [below, Bool.and_eq_true, decide_eq_true_eq] at hb
    obtain ⟨m, hm⟩ := hb.1
    rw [← List.append_assoc] at hm
    exact absurd (pos_suffix_inj hm).symm hij

mutual
theorem below_walk {env : NsMap} {anc : List QName} {pos : Pos} : ∀ (t : Node) {c d : Ctx},
    c ∈ t.walk pos env anc → d ∈ t.walk pos env anc → below d.pos c.pos = true → d.pos ∈ descPositions c
  | .other _ _, c, d, hc, _, _ => by simp [Node.walk] at hc
  | .elem e ks, c, d, hc, hd, hb => by
    simp only [Node.walk, List.mem_cons] at hc hd
    rcases hc with rfl | hc
    · rcases hd with rfl | hd
      · simp [below] at hb
      · unfold descPositions
        simp only
        rw [walks_pos_indep [] (e.decls ++ env) [] (e.tag :: anc)]
        exact List.mem_map.2 ⟨d, hd, rfl⟩
    · rcases hd with rfl | hd
      · have := below_root (t := .elem e ks) (pos := pos) (env := env) (anc := anc) (d := c)
          (by simp [Node.walk, hc])
        simp only at hb
        rw [this] at hb; cases hb
      · exact below_walks ks hc hd hb
theorem below_walks {env : NsMap} {anc : List QName} {pos : Pos} {i : Nat} : ∀ (ks : List Node) {c d : Ctx},
    c ∈ Node.walks pos i env anc ks → d ∈ Node.walks pos i env anc ks → below d.pos c.pos = true →
    d.pos ∈ descPositions c
  | [], c, d, hc, _, _ => by simp [Node.walks] at hc
  | k :: ks, c, d, hc, hd, hb => by
    simp only [Node.walks, List.mem_append] at hc hd
    rcases hc with hc | hc <;> rcases hd with hd | hd
    · exact below_walk k hc hd hb
    · obtain ⟨l, h⟩ := walk_pos (i :: pos) env anc k c hc
      obtain ⟨l', j, hj, h'⟩ := walks_pos pos (i + 1) env anc ks d hd
      rw [h, h', below_sibling (by omega)] at hb; cases hb
    · obtain ⟨l, h⟩ := walk_pos (i :: pos) env anc k d hd
      obtain ⟨l', j, hj, h'⟩ := walks_pos pos (i + 1) env anc ks c hc
      rw [h, h', below_sibling (by omega)] at hb; cases hb
    · exact below_walks ks hc hd hb
end

theorem descPositions_below {c : Ctx} {p : Pos} (h : p ∈ descPositions c) : below p c.pos = true := by
  obtain ⟨d, hd, rfl⟩ := List.mem_map.1 h
  exact below_self_walks hd

/-- Is the element a `Properties` directly in an `Object`? -/
def isProps (obj prop : QName) (c : Ctx) : Bool := decide (c.e.tag = prop) && decide (c.anc.head? = some obj)

theorem filter_length_zero {α : Type} {p : α → Bool} {l : List α} (h : ∀ a ∈ l, p a = false) :
    (l.filter p).length = 0 := by
  rw [List.length_eq_zero_iff]
  apply List.filter_eq_nil_iff.2
  intro a ha; simp [h a ha]

mutual
theorem props_count (obj prop : QName) {env : NsMap} {anc : List QName} {pos : Pos} : ∀ (t : Node) {d : Ctx},
    d ∈ t.walk pos env anc →
    ((t.walk pos env anc).filter (fun c => isProps obj prop c && below d.pos c.pos)).length + propsDepth obj prop anc
      = propsDepth obj prop d.anc
  | .other _ _, d, hd => by simp [Node.walk] at hd
  | .elem e ks, d, hd => by
    simp only [Node.walk, List.mem_cons] at hd
    rcases hd with rfl | hd
    · rw [filter_length_zero]
      · simp
      · intro c hc
        have := below_root hc
        simp only [this, Bool.and_false]
    · have ih := props_counts obj prop ks hd
      have hb := below_self_walks hd
      simp only [Node.walk, List.filter_cons]
      rw [← ih]
      simp only [isProps, hb, Bool.and_true, propsDepth, Bool.and_eq_true, decide_eq_true_eq]
      split <;> simp <;> omega
theorem props_counts (obj prop : QName) {env : NsMap} {anc : List QName} {pos : Pos} {i : Nat} :
    ∀ (ks : List Node) {d : Ctx}, d ∈ Node.walks pos i env anc ks →
    ((Node.walks pos i env anc ks).filter (fun c => isProps obj prop c && below d.pos c.pos)).length
      + propsDepth obj prop anc = propsDepth obj prop d.anc
  | [], d, hd => by simp [Node.walks] at hd
  | k :: ks, d, hd => by
    simp only [Node.walks, List.mem_append] at hd
    simp only [Node.walks, List.filter_append, List.length_append]
    rcases hd with hd | hd
    · have ih := props_count obj prop k hd
      obtain ⟨l, h⟩ := walk_pos (i :: pos) env anc k d hd
      have hz : ((Node.walks pos (i + 1) env anc ks).filter
          (fun c => isProps obj prop c && below d.pos c.pos)).length = 0 := by
        apply filter_length_zero
        intro c hc
        obtain ⟨l', j, hj, h'⟩ := walks_pos pos (i + 1) env anc ks c hc
        rw [h, h', below_sibling (by omega), Bool.and_false]
      omega
    · have ih := props_counts obj prop ks hd
      obtain ⟨l, j, hj, h⟩ := walks_pos pos (i + 1) env anc ks d hd
      have hz : ((k.walk (i :: pos) env anc).filter
          (fun c => isProps obj prop c && below d.pos c.pos)).length = 0 := by
        apply filter_length_zero
        intro c hc
        obtain ⟨l', h'⟩ := walk_pos (i :: pos) env anc k c hc
        rw [h, h', below_sibling (by omega), Bool.and_false]
      omega
end

theorem descPositions_nodup (c : Ctx) : (descPositions c).Nodup := walks_nodup _ _ _ _ _

/-- The loop over the found `Properties`. -/
theorem foldl_lists (g : Elem → Elem) : ∀ (cs : List Ctx) (t : Node),
    cs.foldl (fun t c => t.modifyAll (descPositions c) g) t =
      t.mapPos (fun q e => iter g ((cs.filter (fun c => decide (q ∈ descPositions c))).length) e) []
  | [], t => by simp [iter, mapPos_id]
  | c :: cs, t => by
    rw [List.foldl_cons, foldl_lists g cs, modifyAll_eq_mapPos g _ _ (descPositions_nodup c), mapPos_mapPos]
    congr 1
    funext q e
    by_cases h : q ∈ descPositions c
    · simp only [h, if_true, List.filter_cons, decide_true, List.length_cons]
      exact iter_add g _ 1 e
    · simp [h]

/-- `_update_lists` as an edit. -/
def listsEdit (m : List (String × String)) (c : Ctx) : Elem :=
  iter updateListElem (propsDepth (XName.resolve m ⟨"cybox", "Object"⟩) (XName.resolve m ⟨"cybox", "Properties"⟩) c.anc) c.e

theorem updateLists_eq (u : Cls) (t : Node) : updateLists u t = t.edit (listsEdit u.nsmap) := by
  unfold updateLists
  rw [foldl_lists]
  apply mapPos_eq_mapCtx
  intro d hd
  unfold listsEdit
  congr 1
  have h := props_count (XName.resolve u.nsmap ⟨"cybox", "Object"⟩) (XName.resolve u.nsmap ⟨"cybox", "Properties"⟩) t hd
  simp only [propsDepth, Nat.add_zero] at h
  rw [← h, Node.xpath, List.filter_filter]
  congr 1
  apply List.filter_congr
  intro c hc
  have h1 : decide (d.pos ∈ descPositions c) = below d.pos c.pos := by
    cases hb : below d.pos c.pos with
    | true => exact decide_eq_true (below_walk t hc hd hb)
    | false =>
      apply decide_eq_false
      intro hm; rw [descPositions_below hm] at hb; cases hb
  rw [h1, Bool.and_comm]
  congr 1
  simp [xpathObjectProps, XAlt.selects, isProps, XPred.holds]

theorem updateListElem_keeps (e : Elem) : (updateListElem e).tag = e.tag ∧ (updateListElem e).decls = e.decls ∧
    (updateListElem e).attrs = e.attrs ∧ (updateListElem e).tail = e.tail := by
  unfold updateListElem
  split
  · exact ⟨rfl, rfl, rfl, rfl⟩
  · split <;> exact ⟨rfl, rfl, rfl, rfl⟩

theorem iter_lists_keeps (n : Nat) (e : Elem) : (iter updateListElem n e).tag = e.tag ∧
    (iter updateListElem n e).decls = e.decls ∧ (iter updateListElem n e).attrs = e.attrs ∧
    (iter updateListElem n e).tail = e.tail := by
  induction n with
  | zero => exact ⟨rfl, rfl, rfl, rfl⟩
  | succ n ih =>
    obtain ⟨h1, h2, h3, h4⟩ := updateListElem_keeps (iter updateListElem n e)
    exact ⟨h1.trans ih.1, h2.trans ih.2.1, h3.trans ih.2.2.1, h4.trans ih.2.2.2⟩

theorem keeps_lists (m : List (String × String)) : Keeps (listsEdit m) := fun c =>
  ⟨(iter_lists_keeps _ c.e).1, (iter_lists_keeps _ c.e).2.1⟩

/-! ## Namespaces -/

/-- `_update_namespaces` as an edit. -/
def nsEdit (u : Cls) (c : Ctx) : Elem :=
  if u.nsUpdated c.e.tag then u.updateNsmapElem c.env c.e c.kids else c.e

mutual
theorem updateNamespaces_mapCtx (u : Cls) (pos : Pos) (env : NsMap) (anc : List QName) : ∀ t : Node,
    u.updateNamespaces env t = t.mapCtx (nsEdit u) pos env anc
  | .other _ _ => by simp [Cls.updateNamespaces, Node.mapCtx]
  | .elem e ks => by
    simp only [Cls.updateNamespaces, Node.mapCtx, nsEdit]
    rw [updateNamespacess_mapCtxs u pos 0 (e.decls ++ env) (e.tag :: anc) ks]
    split <;> simp_all
theorem updateNamespacess_mapCtxs (u : Cls) (pos : Pos) (i : Nat) (env : NsMap) (anc : List QName) :
    ∀ ks : List Node, u.updateNamespacess env ks = Node.mapCtxs (nsEdit u) pos i env anc ks
  | [] => by simp [Cls.updateNamespacess, Node.mapCtxs]
  | k :: ks => by
    simp only [Cls.updateNamespacess, Node.mapCtxs]
    rw [updateNamespaces_mapCtx u (i :: pos) env anc k, updateNamespacess_mapCtxs u pos (i + 1) env anc ks]
end

theorem updateNamespaces_eq (u : Cls) (t : Node) : u.updateNamespaces [] t = t.edit (nsEdit u) :=
  updateNamespaces_mapCtx u [] [] [] t

theorem updateNamespaces_none {u : Cls} (h : u.updateNsMap = []) (t : Node) : u.updateNamespaces [] t = t := by
  rw [updateNamespaces_eq]
  apply edit_self
  intro c _
  have : u.nsUpdated c.e.tag = false := by
    unfold Cls.nsUpdated; rw [h]; cases c.e.tag.ns <;> rfl
  simp [nsEdit, this]

/-! ## STIX and CybOX versions -/

theorem setStixVersion_keeps (i v : String) (e : Elem) : (setStixVersion i v e).tag = e.tag ∧
    (setStixVersion i v e).decls = e.decls := ⟨rfl, rfl⟩
theorem setVersion201_keeps (e : Elem) : (setVersion201 e).tag = e.tag ∧ (setVersion201 e).decls = e.decls :=
  ⟨rfl, rfl⟩
theorem setVersion21_keeps (e : Elem) : (setVersion21 e).tag = e.tag ∧ (setVersion21 e).decls = e.decls :=
  ⟨rfl, rfl⟩

/-- Version pass as an edit. -/
def versionEdit (m : List (String × String)) (alts : List XAlt) (g : Elem → Elem) (c : Ctx) : Elem :=
  if alts.any (fun a => a.selects m c) then g c.e else c.e

theorem keeps_version {m : List (String × String)} {alts : List XAlt} {g : Elem → Elem}
    (h : ∀ e, (g e).tag = e.tag ∧ (g e).decls = e.decls) : Keeps (versionEdit m alts g) := Keeps.ite h

theorem stixVersions_eq (u : Cls) (i v : String) (t : Node) :
    stixUpdateVersions u i v t = t.edit (versionEdit u.nsmap u.xpathVersioned (setStixVersion i v)) :=
  modifyXpath_eq t _ _ _

theorem cybox20Versions_eq (u : Cls) (t : Node) :
    cybox20UpdateVersions u t = t.edit (versionEdit u.nsmap u.xpathVersioned setVersion201) :=
  modifyXpath_eq t _ _ _

theorem cybox201Versions_eq (u : Cls) (t : Node) :
    cybox201UpdateVersions u t = t.edit (versionEdit u.nsmap u.xpathVersioned setVersion21) :=
  modifyXpath_eq t _ _ _

end Ramrod

import Verif.Lemmas.Tree
import Verif.Lemmas.Errors
/-!
# What the passes do to the root element
-/

namespace Ramrod

/-- Context of the root element. -/
def rootCtx (e : Elem) (ks : List Node) : Ctx := ⟨[], e.decls ++ [], [], e, ks⟩

theorem descs_elem (e : Elem) (ks : List Node) :
    (Node.elem e ks).descs = Node.walks [] 0 (e.decls ++ []) [e.tag] ks := by
  simp [Node.descs, Node.elems, Node.walk]

theorem elems_elem (e : Elem) (ks : List Node) :
    (Node.elem e ks).elems = rootCtx e ks :: (Node.elem e ks).descs := by
  simp [Node.descs, Node.elems, Node.walk, rootCtx]

theorem descs_pos_ne (t : Node) {c : Ctx} (hc : c ∈ t.descs) : c.pos ≠ [] := by
  cases t with
  | other _ _ => simp [Node.descs, Node.elems, Node.walk] at hc
  | elem e ks =>
    rw [descs_elem] at hc
    obtain ⟨l, j, _, h⟩ := walks_pos [] 0 _ _ ks c hc
    rw [h]; simp

theorem descs_anc_ne (t : Node) {c : Ctx} (hc : c ∈ t.descs) : c.anc ≠ [] := by
  have h := descs_pos_ne t hc
  have he : c ∈ t.elems := List.mem_of_mem_tail hc
  exact fun h' => h ((elems_root_iff he).2 h')

theorem mem_elems_iff (t : Node) (c : Ctx) (e : Elem) (ks : List Node) (ht : t = .elem e ks) :
    c ∈ t.elems ↔ c = rootCtx e ks ∨ c ∈ t.descs := by
  subst ht
  rw [elems_elem]; simp

/-! ## Tree operations -/

theorem root_modifyAt (t : Node) {p : Pos} (hp : p ≠ []) (g : Elem → Elem) :
    (t.modifyAt p g).root? = t.root? := by
  cases t with
  | other _ _ => rfl
  | elem e ks =>
    have : ¬ ([] : Pos) = p := fun h => hp h.symm
    simp [Node.modifyAt, Node.mapPos, Node.root?, this]

theorem root_modifyAll (g : Elem → Elem) : ∀ (ps : List Pos) (t : Node), [] ∉ ps →
    (t.modifyAll ps g).root? = t.root?
  | [], _, _ => rfl
  | p :: ps, t, h => by
    simp only [List.mem_cons, not_or] at h
    have : t.modifyAll (p :: ps) g = (t.modifyAt p g).modifyAll ps g := rfl
    rw [this, root_modifyAll g ps _ h.2, root_modifyAt t (fun e => h.1 e.symm)]

theorem root_edit (e : Elem) (ks : List Node) (F : Ctx → Elem) :
    ((Node.elem e ks).edit F).root? = some (F (rootCtx e ks)) := by
  simp [Node.mapCtx, Node.root?, rootCtx]

theorem root_replaceAll (t : Node) (l : List (Pos × Node)) : (t.replaceAll l).root? = t.root? := by
  cases t with
  | other _ _ => rfl
  | elem e ks => simp [Node.replaceAll, Node.subst, Node.root?]

theorem root_removeAll (t : Node) (ps : List Pos) : (t.removeAll ps).root? = t.root? := by
  cases t with
  | other _ _ => rfl
  | elem e ks => simp [Node.removeAll, Node.prune, Node.root?]

theorem foldE_inv {α σ ε : Type} {f : σ → α → Except ε σ} (P : σ → Prop) : ∀ (l : List α) (s s' : σ),
    (∀ s a s', a ∈ l → P s → f s a = .ok s' → P s') → P s → foldE f s l = .ok s' → P s'
  | [], s, s', _, hs, h => by simp only [foldE, Except.ok.injEq] at h; rw [← h]; exact hs
  | a :: as, s, s', H, hs, h => by
    simp only [foldE] at h
    cases hf : f s a with
    | error x => rw [hf] at h; cases h
    | ok s1 =>
      rw [hf] at h
      exact foldE_inv P as s1 s' (fun s a s' ha => H s a s' (by simp [ha])) (H s a s1 (by simp) hs hf) h

theorem filterE_mem {α ε : Type} {p : α → Except ε Bool} : ∀ {l r : List α}, filterE p l = .ok r →
    ∀ a, a ∈ r ↔ a ∈ l ∧ p a = .ok true
  | [], r, h, a => by simp only [filterE, Except.ok.injEq] at h; subst h; simp
  | x :: xs, r, h, a => by
    simp only [filterE] at h
    cases hp : p x with
    | error y => rw [hp] at h; cases h
    | ok b =>
      rw [hp] at h
      cases hf : filterE p xs with
      | error y => rw [hf] at h; cases h
      | ok r' =>
        rw [hf] at h
        simp only [Except.ok.injEq] at h
        have ih := filterE_mem hf a
        subst h
        cases b with
        | true =>
          simp only [if_true, List.mem_cons, ih]
          constructor
          · rintro (rfl | h)
            · exact ⟨Or.inl rfl, hp⟩
            · exact ⟨Or.inr h.1, h.2⟩
          · rintro ⟨rfl | h, h2⟩
            · exact Or.inl rfl
            · exact Or.inr ⟨h, h2⟩
        | false =>
          simp only [Bool.false_eq_true, if_false, ih, List.mem_cons]
          constructor
          · rintro ⟨h, h2⟩; exact ⟨Or.inr h, h2⟩
          · rintro ⟨rfl | h, h2⟩
            · rw [hp] at h2; cases h2
            · exact ⟨h, h2⟩

theorem typed_pos_ne (t : Node) {c : Ctx} (hc : c ∈ getTypedNodes t) : c.pos ≠ [] :=
  descs_pos_ne t (List.mem_filter.1 hc).1

/-! ## Passes that leave the root alone -/

theorem root_vocabUpdate {v : Vocab} {t t' : Node} (h : v.update t = .ok t') : t'.root? = t.root? := by
  simp only [Vocab.update] at h
  split at h
  · cases h
  · next found hf =>
    refine foldE_inv (fun s => s.root? = t.root?) found t t' ?_ rfl h
    intro s c s' hc hs hst
    split at hst
    · cases hst
    · simp only [Except.ok.injEq] at hst
      rw [← hst, root_modifyAt _ (typed_pos_ne t ((filterE_mem hf c).1 hc).1), hs]

theorem root_updateVocabs {vs : List Vocab} {t t' : Node} (h : updateVocabs vs t = .ok t') :
    t'.root? = t.root? := by
  refine foldE_inv (fun s => s.root? = t.root?) vs t t' ?_ rfl h
  intro s v s' _ hs hv
  rw [root_vocabUpdate hv, hs]

theorem root_vocabsIf {b : Bool} {vs : List Vocab} {t t' : Node}
    (h : (if b then updateVocabs vs t else .ok t) = .ok t') : t'.root? = t.root? := by
  cases b with
  | true => exact root_updateVocabs h
  | false => simp only [Bool.false_eq_true, if_false, Except.ok.injEq] at h; rw [h]

theorem root_removeOptionals {fs : List Finder} {t t' : Node} (h : removeOptionals fs t = .ok t') :
    t'.root? = t.root? := by
  refine foldE_inv (fun s => s.root? = t.root?) fs t t' ?_ rfl h
  intro s f s' _ hs hf
  split at hf
  · cases hf
  · simp only [Except.ok.injEq] at hf
    rw [← hf, root_removeAll, hs]

theorem root_optionalsIf {b : Bool} {fs : List Finder} {t t' : Node}
    (h : (if b then removeOptionals fs t else .ok t) = .ok t') : t'.root? = t.root? := by
  cases b with
  | true => exact root_removeOptionals h
  | false => simp only [Bool.false_eq_true, if_false, Except.ok.injEq] at h; rw [h]

/-- A search that never returns the root. -/
def BelowRoot (alts : List XAlt) : Prop := ∀ a ∈ alts, a.abs = false ∨ a.parent.isSome = true

instance (alts : List XAlt) : Decidable (BelowRoot alts) := by unfold BelowRoot; infer_instance

theorem selects_anc_ne {m : List (String × String)} {a : XAlt} {c : Ctx}
    (ha : a.abs = false ∨ a.parent.isSome = true) (h : a.selects m c = true) : c.anc ≠ [] := by
  intro hc
  unfold XAlt.selects at h
  cases hp : a.parent with
  | none =>
    rw [hp] at ha h
    simp at ha
    simp [ha, hc] at h
  | some p =>
    rw [hp] at h
    simp [hc] at h

theorem xpath_pos_ne {t : Node} {m : List (String × String)} {alts : List XAlt} (hb : BelowRoot alts) {c : Ctx}
    (hc : c ∈ t.xpath m alts) : c.pos ≠ [] := by
  obtain ⟨he, hs⟩ := List.mem_filter.1 hc
  obtain ⟨a, ha, hsel⟩ := List.any_eq_true.1 hs
  exact fun h => selects_anc_ne (hb a ha) hsel ((elems_root_iff he).1 h)

theorem root_translate {f : Trans} (hb : BelowRoot f.xpath) {t t' : Node} (h : f.translate t = .ok t') :
    t'.root? = t.root? := by
  simp only [Trans.translate] at h
  split at h
  · simp only [Except.ok.injEq] at h
    rw [← h]
    apply root_modifyAll
    intro hm
    obtain ⟨c, hc, hp⟩ := List.mem_map.1 hm
    exact xpath_pos_ne hb hc hp
  all_goals
    split at h
    · cases h
    · simp only [Except.ok.injEq] at h
      rw [← h, root_replaceAll]

theorem root_translateFields {fs : List Trans} (hb : ∀ f ∈ fs, BelowRoot f.xpath) {t t' : Node}
    (h : translateFields fs t = .ok t') : t'.root? = t.root? := by
  refine foldE_inv (fun s => s.root? = t.root?) fs t t' ?_ rfl h
  intro s f s' hf hs ht
  rw [root_translate (hb f hf) ht, hs]

theorem root_updateLists (u : Cls) (t : Node) : (updateLists u t).root? = t.root? := by
  unfold updateLists
  generalize hl : t.xpath u.nsmap xpathObjectProps = l
  clear hl
  induction l generalizing t with
  | nil => rfl
  | cons c cs ih =>
    rw [List.foldl_cons, ih]
    apply root_modifyAll
    intro hm
    obtain ⟨d, hd, hp⟩ := List.mem_map.1 hm
    obtain ⟨l, j, _, h⟩ := walks_pos c.pos 0 _ _ c.kids d hd
    rw [h] at hp; simp at hp

theorem root_updateSchemalocs (u : Cls) (t : Node) :
    (u.updateSchemalocs t).root? = t.root?.map u.updateSchemalocsElem := by
  cases t <;> rfl

theorem root_updateNamespaces (u : Cls) (e : Elem) (ks : List Node) :
    (u.updateNamespaces [] (.elem e ks)).root? =
      some (if u.nsUpdated e.tag then u.updateNsmapElem (e.decls ++ []) e ks else e) := by
  simp only [Cls.updateNamespaces]
  split <;> simp_all [Node.root?]

/-! ## Cleaning -/

theorem root_remapGroup (gen : Nat → String → String) : ∀ (cs : List Ctx) (k : Nat) (t : Node),
    (∀ c ∈ cs, c.pos ≠ []) → (remapGroup gen cs k t).1.root? = t.root?
  | [], _, _, _ => rfl
  | c :: cs, k, t, h => by
    simp only [remapGroup]
    rw [root_remapGroup gen cs _ _ (fun d hd => h d (by simp [hd])), root_modifyAt _ (h c (by simp))]

theorem root_cleanDuplicates (gen : Nat → String → String) : ∀ (d : Dups) (k : Nat) (t : Node),
    (∀ g ∈ d, ∀ c ∈ g.2, c.pos ≠ []) → (cleanDuplicates gen d k t).1.root? = t.root?
  | [], _, _, _ => rfl
  | g :: gs, k, t, h => by
    simp only [cleanDuplicates]
    rw [root_cleanDuplicates gen gs _ _ (fun d hd => h d (by simp [hd])),
      root_remapGroup gen g.2 _ _ (h g (by simp))]

theorem getDuplicates_mem {m : List (String × String)} {t : Node} {g : String × List Ctx}
    (hg : g ∈ getDuplicates m t) {c : Ctx} (hc : c ∈ g.2) : c ∈ t.descs := by
  unfold getDuplicates groupDups at hg
  simp only at hg
  obtain ⟨hg, _⟩ := List.mem_filter.1 hg
  obtain ⟨i, _, rfl⟩ := List.mem_map.1 hg
  exact (List.mem_filter.1 (List.mem_filter.1 hc).1).1

theorem dictSet_mem {β : Type} {m : List (String × β)} {k : String} {v : β} {x : String × β}
    (h : x ∈ dictSet m k v) : x ∈ m ∨ x.2 = v := by
  induction m with
  | nil => simp [dictSet] at h; right; rw [h]
  | cons y ys ih =>
    obtain ⟨k', v'⟩ := y
    simp only [dictSet] at h
    split at h
    · rcases List.mem_cons.1 h with rfl | h
      · exact Or.inr rfl
      · left; simp [h]
    · rcases List.mem_cons.1 h with rfl | h
      · left; simp
      · rcases ih h with h | h
        · left; simp [h]
        · exact Or.inr h

theorem dictUpdate_mem {β : Type} : ∀ (b a : List (String × β)) {x : String × β}, x ∈ dictUpdate a b →
    x ∈ a ∨ ∃ y ∈ b, x.2 = y.2
  | [], a, x, h => Or.inl h
  | p :: ps, a, x, h => by
    have h' : x ∈ dictUpdate (dictSet a p.1 p.2) ps := h
    rcases dictUpdate_mem ps _ h' with h1 | ⟨y, hy, h1⟩
    · rcases dictSet_mem h1 with h2 | h2
      · exact Or.inl h2
      · exact Or.inr ⟨p, by simp, h2⟩
    · exact Or.inr ⟨y, by simp [hy], h1⟩

theorem duplicates_descs {w : World} {u : Updater} (h : Registered w u) {t : Node} {d : Dups}
    (hd : u.duplicates t = some d) : ∀ g ∈ d, ∀ c ∈ g.2, c ∈ t.descs := by
  intro g hg c hc
  cases h with
  | cybox20 => cases hd
  | cybox201 => cases hd; exact getDuplicates_mem hg hc
  | stix10 => cases hd
  | stix101 =>
    cases hd
    rcases dictUpdate_mem _ _ hg with h | ⟨y, hy, e⟩
    · exact getDuplicates_mem h hc
    · rw [e] at hc; exact getDuplicates_mem hy hc
  | stix11 => cases hd
  | stix111 => cases hd
  | stix12 => cases hd; exact getDuplicates_mem hg hc

theorem root_clean {w : World} {u : Updater} (h : Registered w u) {o : Options} {k k' : Nat} {t : Node}
    {r : Result} (hc : clean u o k t = .ok (r, k')) : r.doc.root? = t.root? := by
  have hdup : ∀ d, u.duplicates t = some d → (cleanDuplicates o.newId d k t).1.root? = t.root? :=
    fun d hd => root_cleanDuplicates _ _ _ _
      (fun g hg c hc => descs_pos_ne t (duplicates_descs h hd g hg c hc))
  simp only [clean] at hc
  split at hc
  · cases hc
  · next dis _ =>
    cases hd : u.duplicates t with
    | none =>
      rw [hd] at hc
      simp only [Except.ok.injEq, Prod.mk.injEq] at hc
      rw [← hc.1]
      simp only
      cases dis with
      | none => rfl
      | some cs => simp only; split <;> simp [cleanDisallowed, root_removeAll]
    | some d =>
      rw [hd] at hc
      simp only [Except.ok.injEq, Prod.mk.injEq] at hc
      rw [← hc.1]
      simp only
      cases dis with
      | none => exact hdup d hd
      | some cs => simp only; split <;> simp [cleanDisallowed, root_removeAll, hdup d hd]

/-- A step's result is the result of its `_update` on a document with the same root element. -/
theorem step_update {w : World} {u : Updater} (h : Registered w u) {o : Options} {force : Bool} {k k' : Nat}
    {t : Node} {r : Result} (hs : stepUpdate u o force k t = .ok (r, k')) :
    ∃ t1, t1.root? = t.root? ∧ u.update o t1 = .ok r.doc := by
  simp only [stepUpdate] at hs
  split at hs
  · next d hd =>
    simp only [Except.ok.injEq, Prod.mk.injEq] at hs
    refine ⟨t, rfl, ?_⟩
    rw [← hs.1]
    simp only [tryUpdate] at hd
    split at hd
    · cases hd
    · exact hd
  · split at hs
    · simp only [forceUpdate] at hs
      split at hs
      · cases hs
      · next r1 k1 hc =>
        split at hs
        · cases hs
        · next d hd =>
          simp only [Except.ok.injEq, Prod.mk.injEq] at hs
          refine ⟨r1.doc, root_clean h hc, ?_⟩
          rw [← hs.1]; exact hd
    · cases hs

end Ramrod

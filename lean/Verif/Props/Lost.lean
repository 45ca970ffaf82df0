import Verif.Lemmas.Gather
import Verif.Props.Texts
/-!
# Nothing is lost without a report: C61
-/

namespace Ramrod

open Samples

/-! ## Helpers: cleaning -/

theorem vals_gather_all (q : QName) : (∀ (t : Node) (pos : Pos) (env : NsMap) (anc : List QName),
    t.vals q = held (fun e => (e.get? q).toList) (t.walk pos env anc)) := by
  have key : ∀ (n : Nat) (t : Node), sizeOf t ≤ n → ∀ (pos : Pos) (env : NsMap) (anc : List QName),
      t.vals q = held (fun e => (e.get? q).toList) (t.walk pos env anc) := by
    intro n
    induction n with
    | zero => intro t h; cases t <;> simp at h
    | succ n ih =>
      intro t h pos env anc
      cases t with
      | other _ _ => simp [Node.vals, Node.walk, held]
      | elem e ks =>
        simp only [Node.elem.sizeOf_spec] at h
        have kids : ∀ (ks : List Node), sizeOf ks ≤ n → ∀ (i : Nat) (env : NsMap) (anc : List QName),
            Node.valss q ks = held (fun e => (e.get? q).toList) (Node.walks pos i env anc ks) := by
          intro ks
          induction ks with
          | nil => intro _ i env anc; simp [Node.valss, Node.walks, held]
          | cons k ks ihk =>
            intro hk i env anc
            simp only [List.cons.sizeOf_spec] at hk
            simp only [Node.valss, Node.walks]
            rw [ih k (by omega) (i :: pos) env anc, ihk (by omega) (i + 1) env anc]
            simp [held]
        simp only [Node.vals, Node.walk]
        rw [kids ks (by omega) 0 (e.decls ++ env) (e.tag :: anc)]
        simp [held]
  exact fun t => key (sizeOf t) t (Nat.le_refl _)

theorem vals_gather (q : QName) (t : Node) : t.vals q = t.gather (fun e => (e.get? q).toList) := vals_gather_all q t _ _ _

theorem flat_vals (q : QName) (l : List Node) : l.flatMap (Node.vals q) = l.flatMap (Node.gather (fun e => (e.get? q).toList)) := by
  congr 1
  funext t
  exact vals_gather q t

/-- What a cleaned document holds (after the change of ids) is in the document left or in the copies. -/
theorem clean_holds {α : Type} [DecidableEq α] {m : Elem → List α} {x : α} {F : Ctx → Elem} (hF : Keeps F) {t : Node}
    {l : List Ctx} (hl : ∀ c ∈ l, c ∈ t.elems) : ((t.edit F).gather m).count x ≤
      (((t.edit F).without (fun c => decide (c.pos ∈ l.map (·.pos)))).gather m).count x +
      ((copies F [] l).flatMap (Node.gather m)).count x := by
  have := cut_holds m x (t := t.edit F) (l.map (Ctx.upd F)) (fun c hc => by
    obtain ⟨d, hd, rfl⟩ := List.mem_map.1 hc
    rw [elems_edit hF]
    exact List.mem_map.2 ⟨d, hl d hd, rfl⟩)
  have hp : (l.map (Ctx.upd F)).map (·.pos) = l.map (·.pos) := by
    rw [List.map_map]; rfl
  rw [hp, removeAll_without, removedCopies_eq hF l [] hl] at this
  exact this

theorem gather_edit {α : Type} {m : Elem → List α} {F : Ctx → Elem} (hF : Keeps F) {t : Node}
    (h : ∀ c ∈ t.elems, m (F c) = m c.e) : (t.edit F).gather m = t.gather m := by
  unfold Node.gather held
  rw [elems_edit hF, List.flatMap_map]
  have : ∀ l : List Ctx, (∀ c ∈ l, m (F c) = m c.e) → l.flatMap (fun c => m (Ctx.upd F c).e) = l.flatMap (fun c => m c.e) := by
    intro l
    induction l with
    | nil => intro _; rfl
    | cons c l ih =>
      intro hl
      rw [List.flatMap_cons, List.flatMap_cons, ih (fun d hd => hl d (by simp [hd]))]
      congr 1
      exact hl c (by simp)
  exact this _ h

theorem clean_same {nss : Option (List String)} {t : Node} {F : Ctx → Elem} {ν : Ctx → String}
    (h1 : ∀ c ∈ t.elems, DupAt nss t c → F c = c.e.set attrId (ν c)) (h2 : ∀ c ∈ t.elems, ¬ DupAt nss t c → F c = c.e) :
    ∀ c ∈ t.elems, SameButId c.e (F c) := by
  intro c hc
  by_cases hD : DupAt nss t c
  · rw [h1 c hc hD]
    obtain ⟨ns, i, _, ⟨_, _, hi⟩, _⟩ := hD
    exact sameButId_set hi _
  · rw [h2 c hc hD]
    exact sameButId_refl _

/-! ## C61: cleaning -/

/-- C61, cleaning.  Whatever is counted over the elements of the document, names, texts, attribute values other than of `id`: it
is found at least as often in the cleaned document and the removed copies together. -/
theorem C61_clean (w : World) (u : Updater) (hu : Registered w u) (o : Options) (k k' : Nat) (t : Node) (r : Result)
    (hc : clean u o k t = .ok (r, k')) {α : Type} [DecidableEq α] (m : Elem → List α)
    (hm : ∀ e e', SameButId e e' → m e' = m e) (x : α) :
    (t.elems.flatMap (fun c => m c.e)).count x ≤ (r.doc.elems.flatMap (fun c => m c.e)).count x +
      (r.removed.flatMap (fun n => n.elems.flatMap (fun c => m c.e))).count x := by
  obtain ⟨rules, nss, ty, V, hr⟩ := registered_rules hu
  obtain ⟨F, l, ν, n, hF, hl, h1, h2, h3, h4, _⟩ := clean_spec hr hc
  have := clean_holds (m := m) (x := x) hF (t := t) (l := l) (fun c h => ((reportsAll_mem hl c).1 h).1)
  rw [gather_edit hF (fun c hc => hm _ _ (clean_same h1 h2 c hc)), ← h3, ← h4] at this
  exact this

/-- C61, cleaning: an id of the document is on an element of the cleaned document, or of a removed copy, or it is reported as
replaced. -/
theorem C61_clean_ids (w : World) (u : Updater) (hu : Registered w u) (o : Options) (k k' : Nat) (t : Node) (r : Result)
    (hc : clean u o k t = .ok (r, k')) : ∀ v ∈ t.vals ⟨none, "id"⟩,
    v ∈ r.doc.vals ⟨none, "id"⟩ ∨ (∃ n ∈ r.removed, v ∈ n.vals ⟨none, "id"⟩) ∨ ∃ ids, (v, ids) ∈ r.remapped := by
  intro v hv
  obtain ⟨rules, nss, ty, V, hr⟩ := registered_rules hu
  obtain ⟨F, l, ν, n, hF, hl, h1, h2, h3, h4, _, _, _, h5⟩ := clean_spec hr hc
  have hv' := hv
  rw [vals_gather, Node.gather, held, List.mem_flatMap] at hv
  obtain ⟨c, hct, hcv⟩ := hv
  have hcv : c.e.get? ⟨none, "id"⟩ = some v := by simpa using hcv
  by_cases hD : DupAt nss t c
  · obtain ⟨ns, i, e1, hi, hs⟩ := hD
    have : i = v := Option.some.inj (hi.2.2.symm.trans hcv)
    subst this
    obtain ⟨g, hg⟩ := idGroup_exists ns t i
    exact Or.inr (Or.inr ⟨g.map ν, (h5 _ _).2 ⟨ns, g, e1, hs, hg, rfl⟩⟩)
  · have h0 : v ∈ (t.edit F).gather (fun e => (e.get? ⟨none, "id"⟩).toList) := by
      rw [Node.gather, held, List.mem_flatMap, elems_edit hF]
      refine ⟨c.upd F, List.mem_map.2 ⟨c, hct, rfl⟩, ?_⟩
      have : (c.upd F).e = c.e := h2 c hct hD
      rw [this, hcv]
      simp
    have := clean_holds (m := fun e => (e.get? ⟨none, "id"⟩).toList) (x := v) hF (t := t) (l := l)
      (fun c h => ((reportsAll_mem hl c).1 h).1)
    rw [← h3, ← h4, ← flat_vals, ← vals_gather, ← vals_gather] at this
    rw [← vals_gather] at h0
    have h0 := List.count_pos_iff.2 h0
    by_cases hd : v ∈ r.doc.vals ⟨none, "id"⟩
    · exact Or.inl hd
    · rw [List.count_eq_zero_of_not_mem hd] at this
      have : v ∈ r.removed.flatMap (Node.vals ⟨none, "id"⟩) := List.count_pos_iff.1 (by omega)
      exact Or.inr (Or.inl (List.mem_flatMap.1 this))

/-! ## Helpers: whole updates -/

/-- A step, in two parts: the document cleaned (or as it was), then the update proper. -/
theorem step_parts {u : Updater} {o : Options} {force : Bool} {k k' : Nat} {t : Node} {r : Result}
    (h : stepUpdate u o force k t = .ok (r, k')) : ∃ r1 : Result, u.update o r1.doc = .ok r.doc ∧ r.removed = r1.removed ∧
      r.remapped = r1.remapped ∧ ((r1 = ⟨t, [], []⟩ ∧ k' = k) ∨ clean u o k t = .ok (r1, k')) := by
  simp only [stepUpdate] at h
  split at h
  · next d hd =>
    simp only [tryUpdate] at hd
    cases h
    split at hd
    · cases hd
    · exact ⟨⟨t, [], []⟩, hd, rfl, rfl, Or.inl ⟨rfl, rfl⟩⟩
  · split at h
    · simp only [forceUpdate] at h
      split at h
      · cases h
      · next r1 k1 hc =>
        split at h
        · cases h
        · next d hd =>
          cases h
          exact ⟨r1, hd, rfl, rfl, Or.inr hc⟩
    · cases h

/-- A cleaned document is as before, but for ids, without some elements. -/
theorem clean_form {w : World} {u : Updater} (hu : Registered w u) {o : Options} {k k' : Nat} {t : Node} {r : Result}
    (hc : clean u o k t = .ok (r, k')) : ∃ (F : Ctx → Elem) (S : Ctx → Bool), Keeps F ∧ (∀ c ∈ t.elems, SameButId c.e (F c)) ∧
      r.doc = (t.edit F).without S := by
  obtain ⟨rules, nss, ty, V, hr⟩ := registered_rules hu
  obtain ⟨F, l, ν, n, hF, hl, h1, h2, h3, h4, _⟩ := clean_spec hr hc
  exact ⟨F, _, hF, clean_same h1 h2, h3⟩

theorem clean_all {w : World} {u : Updater} (hu : Registered w u) {o : Options} {k k' : Nat} {t : Node} {r : Result}
    (hc : clean u o k t = .ok (r, k')) {A : Elem → Prop} (hA : ∀ e e', SameButId e e' → A e → A e') (h : t.All A) : r.doc.All A := by
  obtain ⟨F, S, hF, hs, h3⟩ := clean_form hu hc
  rw [h3]
  exact all_pruneCtx _ (all_edit h (fun c hc ha => hA _ _ (hs c hc) ha))

theorem clean_tidy {w : World} {u : Updater} (hu : Registered w u) {o : Options} {k k' : Nat} {t : Node} {r : Result}
    (hc : clean u o k t = .ok (r, k')) (h : t.Tidy) : r.doc.Tidy := by
  obtain ⟨F, S, hF, hs, h3⟩ := clean_form hu hc
  rw [h3]
  exact tidy_prune _ (inked_rel (P := SameText) (fun _ _ h => h)
    (rel_mapCtx_mem _ _ _ t (fun c hc => ⟨(hs c hc).2.2.1, (hs c hc).2.2.2.1⟩)) h).2

theorem clean_commas {w : World} {u : Updater} (hu : Registered w u) {o : Options} {k k' : Nat} {t : Node} {r : Result}
    (hc : clean u o k t = .ok (r, k')) (h : CommaFree t) : CommaFree r.doc := by
  obtain ⟨F, S, hF, hs, h3⟩ := clean_form hu hc
  intro c hc ha s hx
  rw [h3] at hc
  obtain ⟨d, hd, e1, _, e3, _⟩ := mem_without hc
  rw [elems_edit hF] at hd
  obtain ⟨d0, hd0, rfl⟩ := List.mem_map.1 hd
  rw [e3] at ha
  rw [e1] at hx
  refine h d0 hd0 ha s ?_
  rw [← hx]
  exact (hs d0 hd0).2.2.1.symm

/-- Removed and remapped parts only grow along a chain. -/
theorem dictSet_keyed {β : Type} (m : List (String × β)) (k : String) (v : β) (i : String) :
    (∃ y, (i, y) ∈ dictSet m k v) ↔ (∃ y, (i, y) ∈ m) ∨ i = k := by
  induction m with
  | nil =>
    simp only [dictSet, List.mem_singleton, Prod.mk.injEq]
    constructor
    · rintro ⟨y, h, _⟩; exact Or.inr h
    · rintro (⟨y, h⟩ | h)
      · cases h
      · exact ⟨v, h, rfl⟩
  | cons p m ih =>
    obtain ⟨k', v'⟩ := p
    simp only [dictSet]
    split
    · next h =>
      subst h
      simp only [List.mem_cons, Prod.mk.injEq]
      constructor
      · rintro ⟨y, ⟨h, _⟩ | h⟩
        · exact Or.inr h
        · exact Or.inl ⟨y, Or.inr h⟩
      · rintro (⟨y, ⟨h, _⟩ | h⟩ | h)
        · exact ⟨v, Or.inl ⟨h, rfl⟩⟩
        · exact ⟨y, Or.inr h⟩
        · exact ⟨v, Or.inl ⟨h, rfl⟩⟩
    · simp only [List.mem_cons]
      constructor
      · rintro ⟨y, h | h⟩
        · exact Or.inl ⟨y, Or.inl h⟩
        · rcases ih.1 ⟨y, h⟩ with ⟨z, hz⟩ | h
          · exact Or.inl ⟨z, Or.inr hz⟩
          · exact Or.inr h
      · rintro (⟨y, h | h⟩ | h)
        · exact ⟨y, Or.inl h⟩
        · obtain ⟨z, hz⟩ := ih.2 (Or.inl ⟨y, h⟩)
          exact ⟨z, Or.inr hz⟩
        · obtain ⟨z, hz⟩ := ih.2 (Or.inr h)
          exact ⟨z, Or.inr hz⟩

theorem dictUpdate_keyed {β : Type} (i : String) : ∀ (b a : List (String × β)),
    (∃ y, (i, y) ∈ dictUpdate a b) ↔ (∃ y, (i, y) ∈ a) ∨ ∃ y, (i, y) ∈ b
  | [], a => by simp [dictUpdate]
  | p :: b, a => by
    have := dictUpdate_keyed i b (dictSet a p.1 p.2)
    simp only [dictUpdate, List.foldl_cons] at this ⊢
    rw [this, dictSet_keyed]
    simp only [List.mem_cons]
    constructor
    · rintro ((h | rfl) | ⟨y, h⟩)
      · exact Or.inl h
      · exact Or.inr ⟨p.2, Or.inl rfl⟩
      · exact Or.inr ⟨y, Or.inr h⟩
    · rintro (h | ⟨y, h | h⟩)
      · exact Or.inl (Or.inl h)
      · exact Or.inl (Or.inr (by rw [← h]))
      · exact Or.inr ⟨y, h⟩

/-- Where the ids of `t` are in an outcome. -/
def IdsKept (t : Node) (r : Result) : Prop := ∀ v ∈ t.vals ⟨none, "id"⟩,
  v ∈ r.doc.vals ⟨none, "id"⟩ ∨ (∃ n ∈ r.removed, v ∈ n.vals ⟨none, "id"⟩) ∨ ∃ ids, (v, ids) ∈ r.remapped

/-- The values of `q` in `t` are in an outcome, as often. -/
def ValsKept (q : QName) (t : Node) (r : Result) : Prop := ∀ v,
  (t.vals q).count v ≤ (r.doc.vals q).count v + (r.removed.flatMap (Node.vals q)).count v

theorem step_values {w : World} {u : Updater} (hu : Registered w u) {o : Options} {force : Bool} {k k' : Nat} {t : Node} {r : Result}
    (h : stepUpdate u o force k t = .ok (r, k')) (hl : t.All Lossless) : r.doc.All Lossless ∧ IdsKept t r ∧
      ∀ q, q ∉ managedNames → q ≠ ⟨none, "id"⟩ → ValsKept q t r := by
  obtain ⟨r1, h1, h2, h3, h4⟩ := step_parts h
  have hl1 : r1.doc.All Lossless := by
    rcases h4 with ⟨rfl, _⟩ | hc
    · exact hl
    · exact clean_all hu hc (fun e e' hs ha => by unfold Lossless; rw [hs.1]; exact ha) hl
  obtain ⟨l2, v2⟩ := update_lossless hu h1 hl1
  refine ⟨l2, ?_, fun q hq hid v => ?_⟩
  · intro v hv
    rw [v2 _ (by decide), h2, h3]
    rcases h4 with ⟨rfl, _⟩ | hc
    · exact Or.inl hv
    · exact C61_clean_ids w u hu o k k' t r1 hc v hv
  · rw [v2 q hq, h2]
    rcases h4 with ⟨rfl, _⟩ | hc
    · exact Nat.le_add_right _ _
    · have := C61_clean w u hu o k k' t r1 hc (fun e => (e.get? q).toList) (fun e e' hs => by rw [hs.2.2.2.2.2 q hid]) v
      rw [vals_gather, vals_gather, flat_vals]
      exact this

theorem chain_values {w : World} (reg : List (String × Updater)) (hreg : ∀ v u, assoc reg v = some u → Registered w u) (o : Options)
    (force : Bool) : ∀ (vs : List String) (acc : Result) (k : Nat) (r : Result) (k' : Nat),
    chainLoop reg o force vs acc k = .ok (r, k') → acc.doc.All Lossless →
    (∀ t, IdsKept t acc → IdsKept t r) ∧ ∀ q, q ∉ managedNames → q ≠ ⟨none, "id"⟩ → ∀ t, ValsKept q t acc → ValsKept q t r
  | [], acc, k, r, k', h, _ => by
    simp only [chainLoop, Except.ok.injEq, Prod.mk.injEq] at h
    rw [h.1]
    exact ⟨fun _ h => h, fun _ _ _ _ h => h⟩
  | v :: vs, acc, k, r, k', h, hl => by
    simp only [chainLoop] at h
    split at h
    · cases h
    · next u hu =>
      split at h
      · cases h
      · next r1 k1 hs =>
        obtain ⟨l1, i1, v1⟩ := step_values (hreg v u hu) hs hl
        obtain ⟨i2, v2⟩ := chain_values reg hreg o force vs _ k1 r k' h l1
        refine ⟨fun t ht => i2 t ?_, fun q hq hid t ht => v2 q hq hid t ?_⟩
        · intro i hi
          have key : (∃ ids, (i, ids) ∈ dictUpdate acc.remapped r1.remapped) ↔ _ := dictUpdate_keyed i _ _
          show _ ∨ _ ∨ ∃ ids, (i, ids) ∈ dictUpdate acc.remapped r1.remapped
          rw [key]
          rcases ht i hi with h0 | ⟨n, hn, h0⟩ | h0
          · rcases i1 i h0 with h0 | ⟨n, hn, h0⟩ | h0
            · exact Or.inl h0
            · exact Or.inr (Or.inl ⟨n, List.mem_append_right _ hn, h0⟩)
            · exact Or.inr (Or.inr (Or.inr h0))
          · exact Or.inr (Or.inl ⟨n, List.mem_append_left _ hn, h0⟩)
          · exact Or.inr (Or.inr (Or.inl h0))
        · intro x
          have a := ht x
          have b := v1 q hq hid x
          show _ ≤ (r1.doc.vals q).count x + ((acc.removed ++ r1.removed).flatMap (Node.vals q)).count x
          rw [List.flatMap_append, List.count_append]
          omega

/-- A statement about whole updates follows from one about the chains of steps. -/
theorem update_chain {w : World} {t : Node} {from_ to_ : Option String} {o : Options} {force : Bool} {k k' : Nat} {r : Result}
    (h : update w t from_ to_ o force k = .ok (r, k')) : ∃ vs reg first x y,
      (∀ v u, assoc reg v = some u → Registered w u ∧ (v ≠ first → Later w u)) ∧ first ∉ vs.tail ∧
      chainLoop reg o force (versionSlice vs x y) ⟨t, [], []⟩ k = .ok (r, k') := by
  have chain : ∀ vs reg f g first, (∀ v u, assoc reg v = some u → Registered w u ∧ (v ≠ first → Later w u)) → first ∉ vs.tail →
      runChain vs reg t f g o force k = .ok (r, k') → ∃ vs reg first x y,
      (∀ v u, assoc reg v = some u → Registered w u ∧ (v ≠ first → Later w u)) ∧ first ∉ vs.tail ∧
      chainLoop reg o force (versionSlice vs x y) ⟨t, [], []⟩ k = .ok (r, k') := by
    intro vs reg f g first hreg hfirst h
    simp only [runChain] at h
    split at h
    · cases h
    · exact ⟨vs, reg, first, _, _, hreg, hfirst, h⟩
  simp only [update] at h
  split at h
  · cases h
  · split at h
    · exact chain _ _ _ _ "1.0" (fun v u hu => ⟨registered_stix hu, later_stix hu⟩) (by decide) h
    · split at h
      · split at h
        · cases h
        · simp only [cyboxUpdate] at h
          split at h
          · cases h
          · exact chain _ _ _ _ "2.0" (fun v u hu => ⟨registered_cybox hu, later_cybox hu⟩) (by decide) h
      · cases h

/-! ## Helpers: text -/

/-- The characters of an element's own text, other than white space. -/
def ownInk (e : Elem) : List Char := ((e.text.getD "").toList).filter (fun c => !isSpace c)

mutual
theorem ink_ge (x : Char) : ∀ (t : Node) (pos : Pos) (env : NsMap) (anc : List QName),
    (held ownInk (t.walk pos env anc)).count x ≤ t.ink.count x
  | .other _ _, _, _, _ => by simp [Node.walk, held]
  | .elem e ks, pos, env, anc => by
    have := inks_ge x ks pos 0 (e.decls ++ env) (e.tag :: anc)
    rw [ink_elem]
    simp only [Node.walk, held_cons, List.count_append]
    unfold ownInk at *
    omega
theorem inks_ge (x : Char) : ∀ (ks : List Node) (pos : Pos) (i : Nat) (env : NsMap) (anc : List QName),
    (held ownInk (Node.walks pos i env anc ks)).count x ≤ ((Node.charss ks).filter (fun c => !isSpace c)).count x
  | [], _, _, _, _ => by simp [Node.walks, held]
  | k :: ks, pos, i, env, anc => by
    have h1 := ink_ge x k (i :: pos) env anc
    have h2 := inks_ge x ks pos (i + 1) env anc
    rw [ink_charss]
    simp only [Node.walks, held_append, List.count_append]
    omega
end

mutual
theorem ink_le (x : Char) : ∀ (t : Node) (_ : t.Tidy) (pos : Pos) (env : NsMap) (anc : List QName),
    t.ink.count x ≤ (held ownInk (t.walk pos env anc)).count x
  | .other c s, h, _, _, _ => by
    have : (Node.other c s).ink = [] := filter_blank h
    rw [this]; exact Nat.zero_le _
  | .elem e ks, h, pos, env, anc => by
    simp only [Node.Tidy] at h
    have := inks_le x ks h.2.2 pos 0 (e.decls ++ env) (e.tag :: anc)
    rw [ink_elem, filter_blank h.2.1]
    simp only [Node.walk, held_cons, List.count_append, List.count_nil]
    unfold ownInk at *
    omega
theorem inks_le (x : Char) : ∀ (ks : List Node) (_ : Node.Tidys ks) (pos : Pos) (i : Nat) (env : NsMap) (anc : List QName),
    ((Node.charss ks).filter (fun c => !isSpace c)).count x ≤ (held ownInk (Node.walks pos i env anc ks)).count x
  | [], _, _, _, _, _ => by rw [charss_nil]; exact Nat.zero_le _
  | k :: ks, h, pos, i, env, anc => by
    simp only [Node.Tidys] at h
    have h1 := ink_le x k h.1 (i :: pos) env anc
    have h2 := inks_le x ks h.2 pos (i + 1) env anc
    rw [ink_charss]
    simp only [Node.walks, held_append, List.count_append]
    omega
end

theorem flat_ink (x : Char) : ∀ l : List Node, (l.flatMap (Node.gather ownInk)).count x ≤ (l.flatMap Node.ink).count x
  | [] => Nat.le_refl _
  | n :: l => by
    have h1 := ink_ge x n [] [] []
    have h2 := flat_ink x l
    simp only [List.flatMap_cons, List.count_append]
    exact Nat.add_le_add h1 h2

/-- The characters of `t` are in an outcome, as often. -/
def InkKept (t : Node) (r : Result) : Prop := ∀ x, t.ink.count x ≤ r.doc.ink.count x + (r.removed.flatMap Node.ink).count x

theorem step_texts {w : World} {u : Updater} (hu : Registered w u) {o : Options} {force : Bool} {k k' : Nat} {t : Node} {r : Result}
    (h : stepUpdate u o force k t = .ok (r, k')) (ht : t.Tidy) (hl : t.All Lossless) (hv : Settled o t) (hf : Later w u ∨ CommaFree t) :
    r.doc.Tidy ∧ Settled o r.doc ∧ InkKept t r := by
  obtain ⟨r1, h1, h2, h3, h4⟩ := step_parts h
  have key : r1.doc.Tidy ∧ r1.doc.All Lossless ∧ Settled o r1.doc ∧ (Later w u ∨ CommaFree r1.doc) ∧ InkKept t r1 := by
    rcases h4 with ⟨rfl, _⟩ | hc
    · exact ⟨ht, hl, hv, hf, fun x => Nat.le_add_right _ _⟩
    · refine ⟨clean_tidy hu hc ht, clean_all hu hc (fun e e' hs ha => by unfold Lossless; rw [hs.1]; exact ha) hl,
        hv.imp id (clean_all hu hc (fun e e' hs ha => steady_text hs.2.2.1 ha)), hf.imp id (clean_commas hu hc), fun x => ?_⟩
      have a := C61_clean w u hu o k k' t r1 hc ownInk (fun e e' hs => by unfold ownInk; rw [hs.2.2.1]) x
      have b := ink_le x t ht [] [] []
      have c := ink_ge x r1.doc [] [] []
      have d := flat_ink x r1.removed
      have a' : (held ownInk (t.walk [] [] [])).count x ≤ (held ownInk (r1.doc.walk [] [] [])).count x +
        (r1.removed.flatMap (Node.gather ownInk)).count x := a
      omega
  obtain ⟨p1, p2, p3, p4, p5⟩ := key
  obtain ⟨i1, s1⟩ := step_inked hu h1 p1 p2 p3 p4
  refine ⟨i1.2, s1, fun x => ?_⟩
  rw [i1.1, h2]
  exact p5 x

theorem chain_texts {w : World} (reg : List (String × Updater)) (first : String)
    (hreg : ∀ v u, assoc reg v = some u → Registered w u ∧ (v ≠ first → Later w u)) (o : Options) (force : Bool) :
    ∀ (vs : List String) (acc : Result) (k : Nat) (r : Result) (k' : Nat), chainLoop reg o force vs acc k = .ok (r, k') →
    acc.doc.Tidy → acc.doc.All Lossless → Settled o acc.doc → (CommaFree acc.doc ∨ first ∉ vs) → first ∉ vs.tail →
    ∀ t, InkKept t acc → InkKept t r
  | [], acc, k, r, k', h, _, _, _, _, _ => by
    simp only [chainLoop, Except.ok.injEq, Prod.mk.injEq] at h
    rw [h.1]
    exact fun _ h => h
  | v :: vs, acc, k, r, k', h, ht, hl, hv, hc, hf => by
    simp only [chainLoop] at h
    split at h
    · cases h
    · next u hu =>
      split at h
      · cases h
      · next r1 k1 hs =>
        obtain ⟨g1, g2⟩ := hreg v u hu
        have hf' : Later w u ∨ CommaFree acc.doc := by
          rcases hc with hc | hc
          · exact Or.inr hc
          · exact Or.inl (g2 (fun e => hc (e ▸ List.mem_cons_self ..)))
        obtain ⟨l1, _⟩ := step_values g1 hs hl
        obtain ⟨t1, s1, i1⟩ := step_texts g1 hs ht hl hv hf'
        intro t0 h0
        refine chain_texts reg first hreg o force vs _ k1 r k' h t1 l1 s1 (Or.inr hf) (fun hx => hf (List.mem_of_mem_tail hx)) t0 ?_
        intro x
        have a := h0 x
        have b := i1 x
        show _ ≤ r1.doc.ink.count x + ((acc.removed ++ r1.removed).flatMap Node.ink).count x
        rw [List.flatMap_append, List.count_append]
        omega

/-! ## C61: whole updates -/

/-- C61 for a whole update, forced or not: every value of every attribute that the steps do not manage, `id` aside, is found at
least as often in the result and the removed copies together.  Partial: the document has none of the elements that are replaced
by others, see `C61_lost_fails`. -/
theorem C61_update_partial (w : World) (t : Node) (from_ to_ : Option String) (o : Options) (force : Bool) (k k' : Nat) (r : Result)
    (h : update w t from_ to_ o force k = .ok (r, k')) (ht : ∀ c ∈ t.elems, c.e.tag ∉ lossyTags) (q : QName)
    (hq : q ∉ managedNames) (hid : q ≠ ⟨none, "id"⟩) (v : String) :
    (t.vals q).count v ≤ (r.doc.vals q).count v + (r.removed.flatMap (Node.vals q)).count v := by
  obtain ⟨vs, reg, first, x, y, hreg, _, h⟩ := update_chain h
  refine (chain_values reg (fun v u hu => (hreg v u hu).1) o force _ _ k r k' h (all_elems.2 ht)).2 q hq hid t ?_ v
  exact fun v => Nat.le_add_right _ _

/-- C61 for the ids: after a whole update, forced or not, every id is in the result, in a removed copy, or reported as replaced.
Partial: as above. -/
theorem C61_update_ids_partial (w : World) (t : Node) (from_ to_ : Option String) (o : Options) (force : Bool) (k k' : Nat)
    (r : Result) (h : update w t from_ to_ o force k = .ok (r, k')) (ht : ∀ c ∈ t.elems, c.e.tag ∉ lossyTags) :
    ∀ v ∈ t.vals ⟨none, "id"⟩,
      v ∈ r.doc.vals ⟨none, "id"⟩ ∨ (∃ n ∈ r.removed, v ∈ n.vals ⟨none, "id"⟩) ∨ ∃ ids, (v, ids) ∈ r.remapped := by
  obtain ⟨vs, reg, first, x, y, hreg, _, h⟩ := update_chain h
  refine (chain_values reg (fun v u hu => (hreg v u hu).1) o force _ _ k r k' h (all_elems.2 ht)).1 t ?_
  exact fun v hv => Or.inl hv

/-- C61 for text: after a whole update, forced or not, every character other than white space is found at least as often in the
result and the removed copies together.  Partial: as above; and no mixed content, no commas in object properties, and no
vocabulary term to correct (as for C47). -/
theorem C61_update_texts_partial (w : World) (t : Node) (from_ to_ : Option String) (o : Options) (force : Bool) (k k' : Nat)
    (r : Result) (h : update w t from_ to_ o force k = .ok (r, k')) (ht : t.Tidy) (hl : ∀ c ∈ t.elems, c.e.tag ∉ lossyTags)
    (hc : CommaFree t) (hv : o.updateVocabularies = false ∨ ∀ c ∈ t.elems, ∀ p ∈ correctedTerms, c.e.text ≠ some p.1) (x : Char) :
    t.ink.count x ≤ r.doc.ink.count x + (r.removed.flatMap Node.ink).count x := by
  obtain ⟨vs, reg, first, y, z, hreg, hfirst, h⟩ := update_chain h
  exact chain_texts reg first hreg o force _ _ k r k' h ht (all_elems.2 hl) (hv.imp id all_elems.2) (Or.inl hc)
    (fun hx => hfirst (slice_tail hx)) t (fun x => Nat.le_add_right _ _) x

/-! ### Cases that meet the hypotheses -/

/-- A CybOX 2.0.1 document with two elements with one id and two untranslatable elements, one of them inside the other. -/
def docLost : Node :=
  cyboxDoc v201 [el nsCyboxCore "Observable" [at_ "id" "d"] [], el nsCyboxCore "Observable" [at_ "id" "d", at_ "idref" "q"] [],
    el nsHTTPSession "X_Forwarded_Proto" [at_ "id" "e", at_ "idref" "r"]
      [el nsHTTPSession "X_Forwarded_Proto" [] [] (some "kept")]]

/-- The hypotheses of the theorems of C61: a forced update of it. -/
example : docLost.Tidy ∧ (∀ c ∈ docLost.elems, c.e.tag ∉ lossyTags) ∧ CommaFree docLost ∧
    (∃ r, clean cybox201 o0 0 docLost = .ok r ∧ r.1.removed.map (Node.vals ⟨none, "id"⟩) = [["e"], []]) ∧
    ∃ r, update w0 docLost none none o0 true 0 = .ok r ∧
      r.1.doc.vals ⟨none, "idref"⟩ = ["q"] ∧ r.1.removed.flatMap (Node.vals ⟨none, "idref"⟩) = ["r"] ∧
      r.1.removed.flatMap (Node.vals ⟨none, "id"⟩) = ["e"] ∧ r.1.remapped.map (·.1) = ["d"] ∧
      r.1.doc.ink = [] ∧ r.1.removed.flatMap Node.ink = "keptkept".toList :=
  ⟨tidy_of (by decide +kernel), by decide +kernel, commaFree_of (by decide +kernel), ok_of_eval (by decide +kernel),
    ok_of_eval (by decide +kernel)⟩

/-- C61 fails where elements are replaced: the id of a list of contributors is neither in the result nor in the report, forced
or not. -/
theorem C61_lost_fails (force : Bool) : ∃ r, stepUpdate (stix101 w0) o0 force 0 docContributorsAttr = .ok r ∧
    docContributorsAttr.vals ⟨none, "id"⟩ = ["l"] ∧ r.1.doc.vals ⟨none, "id"⟩ = [] ∧ r.1.removed = [] ∧ r.1.remapped = [] := by
  cases force
  · exact ok_of_eval (by decide +kernel)
  · exact ok_of_eval (by decide +kernel)

end Ramrod

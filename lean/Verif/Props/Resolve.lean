import Verif.Props.Again
/-!
# The types of Windows driver objects after the CybOX 2.0.1 step: C26
-/

namespace Ramrod

open Samples

/-! ## Statement -/

/-- The namespace that CybOX 2.1 replaces. -/
def driverNs : List (String × String) :=
  [("http://cybox.mitre.org/objects#WinDriverObject-2", "http://cybox.mitre.org/objects#WinDriverObject-3")]

/-! ## Helpers -/

mutual
theorem mem_walk_decls {F : Ctx → Elem} (hF : ∀ c, (F c).decls = c.e.decls) {pos : Pos} {env : NsMap} {anc anc' : List QName} : ∀ (t : Node),
    ∀ c' ∈ (t.mapCtx F pos env anc).walk pos env anc', ∃ c ∈ t.walk pos env anc, c'.pos = c.pos ∧ c'.e = F c ∧ c'.env = c.env
  | .other _ _, c', h => by simp [Node.mapCtx, Node.walk] at h
  | .elem e ks, c', h => by
    simp only [Node.mapCtx, Node.walk, List.mem_cons, hF] at h
    rcases h with rfl | h
    · exact ⟨⟨pos, e.decls ++ env, anc, e, ks⟩, by simp [Node.walk], rfl, rfl, rfl⟩
    · obtain ⟨c, hc, H⟩ := mem_walks_decls hF ks c' h
      exact ⟨c, by simp [Node.walk, hc], H⟩
theorem mem_walks_decls {F : Ctx → Elem} (hF : ∀ c, (F c).decls = c.e.decls) {pos : Pos} {i : Nat} {env : NsMap} {anc anc' : List QName} :
    ∀ (ks : List Node), ∀ c' ∈ Node.walks pos i env anc' (Node.mapCtxs F pos i env anc ks), ∃ c ∈ Node.walks pos i env anc ks,
      c'.pos = c.pos ∧ c'.e = F c ∧ c'.env = c.env
  | [], c', h => by simp [Node.mapCtxs, Node.walks] at h
  | k :: ks, c', h => by
    simp only [Node.mapCtxs, Node.walks, List.mem_append] at h
    rcases h with h | h
    · obtain ⟨c, hc, H⟩ := mem_walk_decls hF k c' h
      exact ⟨c, by simp [Node.walks, hc], H⟩
    · obtain ⟨c, hc, H⟩ := mem_walks_decls hF ks c' h
      exact ⟨c, by simp [Node.walks, hc], H⟩
end

theorem mem_edit_decls {F : Ctx → Elem} (hF : ∀ c, (F c).decls = c.e.decls) {t : Node} {c' : Ctx} (h : c' ∈ (t.edit F).elems) :
    ∃ c ∈ t.elems, c'.pos = c.pos ∧ c'.e = F c ∧ c'.env = c.env := mem_walk_decls hF t c' h

/-- An element that keeps its place, its bindings, the namespace of its name and its type unless that is a CybOX vocabulary. -/
def Stays (c c' : Ctx) : Prop := c'.pos = c.pos ∧ c'.env = c.env ∧ c'.e.tag.ns = c.e.tag.ns ∧
  ∀ p ty ns, c.TypedAs p ty ns → ns ≠ "http://cybox.mitre.org/default_vocabularies-2" → c'.TypedAs p ty ns

theorem stays_trans {a b c : Ctx} (h : Stays a b) (g : Stays b c) : Stays a c :=
  ⟨g.1.trans h.1, g.2.1.trans h.2.1, g.2.2.1.trans h.2.2.1, fun p ty ns ht hn => g.2.2.2 p ty ns (h.2.2.2 p ty ns ht hn) hn⟩

theorem stays_plain {F : Ctx → Elem} (hF : ∀ c, (F c).decls = c.e.decls ∧ (F c).tag.ns = c.e.tag.ns ∧ (F c).get? tagXsiType = c.e.get? tagXsiType)
    {t : Node} : ∀ c' ∈ (t.edit F).elems, ∃ c ∈ t.elems, Stays c c' := by
  intro c' hc'
  obtain ⟨c, hc, h1, h2, h3⟩ := mem_edit_decls (fun c => (hF c).1) hc'
  refine ⟨c, hc, h1, h3, by rw [h2]; exact (hF c).2.1, fun p ty ns ht _ => ?_⟩
  exact (typedAs_congr h3 (by rw [h2]; exact (hF c).2.2)).2 ht

theorem stays_stamped {F : Ctx → Elem} (hF : ∀ c, Stamped c.e (F c)) {t : Node} : ∀ c' ∈ (t.edit F).elems, ∃ c ∈ t.elems, Stays c c' :=
  stays_plain (fun c => ⟨(hF c).1.1.2.1, by rw [(hF c).1.1.1], sameData_get (by decide) (hF c).1.1⟩)

theorem stamped_schemalocEdit (u : Cls) (c : Ctx) : Stamped c.e (schemalocEdit u c) := by
  unfold schemalocEdit
  split
  · unfold Cls.updateSchemalocsElem
    split
    · exact stamped_refl _
    · exact stamped_set (by decide)
  · exact stamped_refl _

theorem stamped_versionEdit {m : List (String × String)} {alts : List XAlt} {g : Elem → Elem} (hg : ∀ e, Stamped e (g e)) (c : Ctx) :
    Stamped c.e (versionEdit m alts g c) := by
  unfold versionEdit
  split
  · exact hg _
  · exact stamped_refl _

theorem stays_vocabs {b : Bool} {vs : List Vocab} {rows : List VocabRow} (hm : MatchesAll vs rows) (hs : Stable rows)
    (hns : ∀ row ∈ rows, row.ns = "http://cybox.mitre.org/default_vocabularies-2") {t t' : Node}
    (h : (if b then updateVocabs vs t else .ok t) = .ok t') : ∀ c' ∈ t'.elems, ∃ c ∈ t.elems, Stays c c' := by
  cases b with
  | false => cases h; exact fun c hc => ⟨c, hc, rfl, rfl, rfl, fun _ _ _ h _ => h⟩
  | true =>
    obtain ⟨F, hF, rfl, hspec⟩ := updateVocabs_spec hm hs h
    intro c' hc'
    obtain ⟨c, hc, h1, h2, h3⟩ := mem_edit_decls (fun c => (hF c).2) hc'
    refine ⟨c, hc, h1, h3, by rw [h2, (hF c).1], fun p ty ns ht hn => ?_⟩
    have : F c = c.e := (hspec c hc).2 (by
      rintro row hr q ⟨_, ty', _, ho⟩
      exact hn ((typedAs_unique ht ho).2.2.trans (hns row hr)))
    exact (typedAs_congr h3 (by rw [h2, this])).2 ht

theorem driver_eq : (cybox201Cls Tables.cybox201_nsmap xpathObservables).updateNsMap = driverNs := by decide +kernel

/-! ## C26 -/

/-- C26 for the CybOX 2.0.1 step: if the driver namespace is declared on elements of that namespace only, every prefix, on every
element, is bound to the new name of what it was bound to, and a type that was in the driver namespace is in the new one. Types in
other namespaces stay, except those of the CybOX vocabularies, whose names change (C19).
Partial: a declaration on another element, such as the root, stays (`C26_cybox_fails`); documents with the fields that the step
builds anew are left out. -/
theorem C26_cybox201_partial (o : Options) (t t' : Node) (hn : DeclaredOnRenamed driverNs t)
    (h1 : NoneNamed [objName "HTTPSession" "DNT", objName "HTTPSession" "Vary", objName "HTTPSession" "Refresh"] t)
    (h2 : NoneNested [(objName "WinMailslot" "Handle", objName "WinHandle" "Handle")] t)
    (h : cybox201.update o t = .ok t') :
    ∀ c' ∈ t'.elems, ∃ c ∈ t.elems, (o.removeOptionals = false → c'.pos = c.pos) ∧
      c'.e.tag.ns = c.e.tag.ns.map (newName driverNs) ∧
      (∀ p, NsMap.get? c'.env p = (NsMap.get? c.env p).map (newName driverNs)) ∧
      ∀ p ty ns, c.TypedAs p ty ns → ns ≠ "http://cybox.mitre.org/default_vocabularies-2" → c'.TypedAs p ty (newName driverNs ns) := by
  have h' : cybox201Update (cybox201Cls Tables.cybox201_nsmap xpathObservables) o t = .ok t' := h
  simp only [cybox201Update] at h'
  rw [cybox201Versions_eq, updateSchemalocs_eq] at h'
  have k1 : ClearOf rebuilt201 mailslot201 ((cybox201Cls Tables.cybox201_nsmap xpathObservables).updateNamespaces [] t) :=
    clear_ns (by decide +kernel) (by decide +kernel) ⟨h1, h2⟩
  have k0 : ∀ c' ∈ ((cybox201Cls Tables.cybox201_nsmap xpathObservables).updateNamespaces [] t).elems, ∃ c ∈ t.elems, c'.pos = c.pos ∧
      c'.e.tag.ns = c.e.tag.ns.map (newName driverNs) ∧
      (∀ p, NsMap.get? c'.env p = (NsMap.get? c.env p).map (newName driverNs)) ∧
      ∀ p ty ns, c.TypedAs p ty ns → c'.TypedAs p ty (newName driverNs ns) := by
    rw [updateNamespaces_eq]
    intro c' hc'
    obtain ⟨c, hc, h3, h4, h5⟩ := renamed_walk (u := cybox201Cls Tables.cybox201_nsmap xpathObservables) rfl (env := []) (env' := []) t
      (by rw [driver_eq]; exact hn) (fun _ => rfl) c' hc'
    have hx := nsEdit_elem (cybox201Cls Tables.cybox201_nsmap xpathObservables) c
    rw [driver_eq] at h5 hx
    refine ⟨c, hc, h3, ?_, h5, ?_⟩
    · rw [h4]
      rcases Classical.em (OldNs driverNs c.e.tag) with ho | ho
      · rw [(hx.2 ho).1]
      · rw [hx.1 ho]
        cases hq : c.e.tag.ns with
        | none => rfl
        | some n =>
          have : n ≠ "http://cybox.mitre.org/objects#WinDriverObject-2" := fun e => ho ⟨n, by simp [driverNs, e], hq⟩
          simp [newName, driverNs, Ne.symm this]
    · rintro p ty ns ⟨v, hv, hq, hp⟩
      refine ⟨v, ?_, hq, by rw [h5, hp]; rfl⟩
      have ha : c'.e.attrs = c.e.attrs := by
        rw [h4]
        rcases Classical.em (OldNs driverNs c.e.tag) with ho | ho
        · exact (hx.2 ho).2.1
        · rw [hx.1 ho]
      simp only [Elem.get?] at hv ⊢
      rw [ha]; exact hv
  generalize (cybox201Cls Tables.cybox201_nsmap xpathObservables).updateNamespaces [] t = t0 at h' k0 k1
  have k2 := clear_rel (fun _ _ h => ⟨h.1.1.1, h.1.1.2.1⟩)
    (rel_stamped_trans (stamped_schemaloc (cybox201Cls Tables.cybox201_nsmap xpathObservables) t0)
      (stamped_versions (m := (cybox201Cls Tables.cybox201_nsmap xpathObservables).nsmap)
        (alts := (cybox201Cls Tables.cybox201_nsmap xpathObservables).xpathVersioned) stamped_21 _)) k1
  rw [updateSchemalocs_eq] at k2
  have s1 := stays_stamped (t := t0) (stamped_schemalocEdit (cybox201Cls Tables.cybox201_nsmap xpathObservables))
  generalize t0.edit (schemalocEdit (cybox201Cls Tables.cybox201_nsmap xpathObservables)) = t1 at h' k2 s1
  have s2 := stays_stamped (t := t1) (stamped_versionEdit (m := (cybox201Cls Tables.cybox201_nsmap xpathObservables).nsmap)
    (alts := (cybox201Cls Tables.cybox201_nsmap xpathObservables).xpathVersioned) stamped_21)
  generalize t1.edit (versionEdit _ _ setVersion21) = d at h' k2 s2
  split at h'
  · cases h'
  · next d2 h3 =>
    obtain ⟨⟨f, _, hf, rfl⟩, _⟩ := fields201_done h3 k2
    have s3 := stays_plain (F := renBelow f) (t := d) (fun c => by
      unfold renBelow
      split
      · exact ⟨rfl, rfl, rfl⟩
      · exact ⟨rfl, hf _, rfl⟩)
    split at h'
    · cases h'
    · next d4 h4 =>
      have s4 := stays_vocabs (stepRows_matches (w := w0) .cybox201) (stepRows_stable (w := w0) .cybox201) (by decide) h4
      have s5 : ∀ c' ∈ t'.elems, ∃ c ∈ d4.elems, c'.e = c.e ∧ c'.env = c.env ∧ (o.removeOptionals = false → c'.pos = c.pos) := by
        intro c' hc'
        cases hb : o.removeOptionals with
        | true =>
          obtain ⟨c, hc, a1, a2, _⟩ := mem_optionalsIf h' c' hc'
          exact ⟨c, hc, a1, a2, by simp⟩
        | false =>
          rw [hb] at h'
          cases h'
          exact ⟨c', hc', rfl, rfl, fun _ => rfl⟩
      intro c' hc'
      obtain ⟨c5, g5, e1, e2, e3⟩ := s5 c' hc'
      obtain ⟨c4, g4, b4⟩ := s4 c5 g5
      obtain ⟨c3, g3, b3⟩ := s3 c4 g4
      obtain ⟨c2, g2, b2⟩ := s2 c3 g3
      obtain ⟨c1, g1, b1⟩ := s1 c2 g2
      obtain ⟨c, g, a1, a2, a3, a4⟩ := k0 c1 g1
      have hb := stays_trans (stays_trans (stays_trans b1 b2) b3) b4
      refine ⟨c, g, fun ho => (e3 ho).trans (hb.1.trans a1), by rw [e1, hb.2.2.1, a2], fun p => by rw [e2, hb.2.1, a3], fun p ty ns ht hne => ?_⟩
      refine (typedAs_congr e2 (by rw [e1])).2 (hb.2.2.2 _ _ _ (a4 _ _ _ ht) ?_)
      unfold newName driverNs
      simp only [List.find?_cons, List.find?_nil]
      split
      · exact (by decide : "http://cybox.mitre.org/objects#WinDriverObject-3" ≠ "http://cybox.mitre.org/default_vocabularies-2")
      · exact hne

/-- A driver object whose own element declares the namespace, with a typed element inside. -/
def docDriverInside : Node :=
  cyboxDoc v201 [.elem ⟨objName "WinDriver" "A", [(some "d", "http://cybox.mitre.org/objects#WinDriverObject-2")], [], none, none⟩
    [el nsCyboxCore "P" [xsiType "d:T"] []]]

example : DeclaredOnRenamed driverNs docDriverInside ∧
    (NoneNamed [objName "HTTPSession" "DNT", objName "HTTPSession" "Vary", objName "HTTPSession" "Refresh"] docDriverInside ∧
    NoneNested [(objName "WinMailslot" "Handle", objName "WinHandle" "Handle")] docDriverInside) ∧
    ∃ r, stepUpdate cybox201 o0 false 0 docDriverInside = .ok r ∧
      r.1.doc.elems.map (fun c => (c.e.get? tagXsiType, NsMap.get? c.env (some "d"))) =
        [(none, none), (none, some "http://cybox.mitre.org/objects#WinDriverObject-3"),
          (some "d:T", some "http://cybox.mitre.org/objects#WinDriverObject-3")] := by
  refine ⟨?_, ⟨by unfold NoneNamed; decide +kernel, by unfold NoneNested; decide +kernel⟩, ok_of_eval (by decide +kernel)⟩
  have : ∀ c ∈ docDriverInside.elems, c.e.tag.ns = some "http://cybox.mitre.org/objects#WinDriverObject-2" ∨
      ∀ d ∈ c.e.decls, d.2 ∉ driverNs.map (·.1) := by decide +kernel
  intro c hc hn
  rcases this c hc with e | e
  · exact absurd ⟨_, by simp [driverNs], e⟩ hn
  · exact e

end Ramrod

import Verif.Props.Manual
/-!
# Repeating an update step: C59
-/

namespace Ramrod

open Samples

/-! ## Statement -/

/-- Nothing inside the properties of an object contains an escaped comma. -/
def NoEscapes (t : Node) : Prop :=
  ∀ c ∈ t.elems, (∃ i, PropsAt c.anc i) → ∀ s, c.e.text = some s → ¬ "&comma;".toList <:+: s.toList

/-- No element stands directly in another one as listed. -/
def NoneNested (L : List (QName × QName)) (t : Node) : Prop := ∀ c ∈ t.elems, ∀ q ∈ L, ¬ (c.e.tag = q.2 ∧ c.anc.head? = some q.1)

/-- No element below the root has one of the names. -/
def NoneNamed (names : List QName) (t : Node) : Prop := ∀ c ∈ t.elems, c.anc ≠ [] → c.e.tag ∉ names

/-! ## Helpers -/

/-! ### Schema locations -/

/-- Rewriting the schema locations of the root changes nothing. -/
def LocFixed (T : LocTables) (t : Node) : Prop :=
  ∀ v, rootAttr t tagSchemaLoc = some v → createSchemalocStr ((getSchemalocPairs v).filterMap T.rewrite) = v

theorem attrs_set_self {as : Attrs} {k : QName} {v : String} (h : Attrs.get? as k = some v) : Attrs.set as k v = as := by
  induction as with
  | nil => simp [Attrs.get?] at h
  | cons x xs ih =>
    obtain ⟨k1, v1⟩ := x
    by_cases hk : k1 = k
    · simp [Attrs.get?, hk] at h
      simp [Attrs.set, hk, h]
    · simp only [Attrs.get?, hk, if_false] at h
      simp only [Attrs.set, hk, if_false, ih h]

theorem elem_set_self {e : Elem} {k : QName} {v : String} (h : e.get? k = some v) : e.set k v = e := by
  unfold Elem.set
  rw [attrs_set_self h]

theorem attrs_del_self {as : Attrs} {k : QName} (h : Attrs.get? as k = none) : Attrs.del as k = as := by
  induction as with
  | nil => rfl
  | cons x xs ih =>
    obtain ⟨k1, v1⟩ := x
    by_cases hk : k1 = k
    · simp [Attrs.get?, hk] at h
    · simp only [Attrs.get?, hk, if_false] at h
      unfold Attrs.del at ih ⊢
      rw [List.filter_cons_of_pos (by simp [hk]), ih h]

theorem elem_del_self {e : Elem} {k : QName} (h : e.get? k = none) : e.del k = e := by
  unfold Elem.del
  rw [attrs_del_self h]

theorem loc_idle {u : Cls} {t : Node} (h : LocFixed u.locTables t) : u.updateSchemalocs t = t := by
  cases t with
  | other _ _ => rfl
  | elem e ks =>
    simp only [Cls.updateSchemalocs]
    congr 1
    unfold Cls.updateSchemalocsElem
    split
    · rfl
    · next v hv =>
      rw [remap_clean, h v (by simpa [rootAttr, Node.root?] using hv)]
      exact elem_set_self hv

/-- Tables that do not rename, and no location of which is overwritten by the others. -/
theorem rewriteAll_fixed {Ts : List LocTables} (hw : ∀ T ∈ Ts, T.Wordy) (hne : Ts ≠ []) {w : World} {u : Updater} (hT : StepTables w u Ts)
    {T : LocTables} (hfix : ∀ ps, (rewriteAll Ts ps).filterMap T.rewrite = rewriteAll Ts ps) {o : Options} {t t' : Node}
    (h : u.update o t = .ok t') : LocFixed T t' := by
  intro v hv
  rw [update_schemaloc hT h] at hv
  cases h0 : rootAttr t tagSchemaLoc with
  | none => rw [h0, locEffect_none] at hv; cases hv
  | some v0 =>
    rw [h0, locEffect_some Ts hw v0 hne] at hv
    cases hv
    rw [read_create (rewriteAll_words Ts hw _ (fun p hp => pairs_isWord hp)), hfix]

theorem filterMap_self {α : Type} {f : α → Option α} : ∀ {l : List α}, (∀ a ∈ l, f a = some a) → l.filterMap f = l
  | [], _ => rfl
  | a :: l, h => by rw [List.filterMap_cons_some (h a (by simp)), filterMap_self (fun b hb => h b (by simp [hb]))]

theorem fixed_one {T : LocTables} (hT : T.Stable) (ps : List (String × String)) :
    (rewriteAll [T] ps).filterMap T.rewrite = rewriteAll [T] ps := filterMap_rewrite hT ps

/-- The second table neither renames nor shares a location with the first. -/
def LocTables.Apart (T S : LocTables) : Prop := S.renamed = [] ∧ ∀ p ∈ T.locations, assoc S.locations p.1 = none

theorem assoc_none_of {l l' : List (String × String)} (h : ∀ p ∈ l, assoc l' p.1 = none) {k v : String} (hk : assoc l' k = some v) :
    assoc l k = none := by
  cases ha : assoc l k with
  | none => rfl
  | some x =>
    have := h _ (assoc_mem ha)
    simp only at this
    rw [this] at hk
    cases hk

theorem fixed_first {T S : LocTables} (hT : T.Stable) (hA : T.Apart S) (ps : List (String × String)) :
    (rewriteAll [T, S] ps).filterMap T.rewrite = rewriteAll [T, S] ps := by
  refine filterMap_self (fun q hq => ?_)
  simp only [rewriteAll, List.foldl_cons, List.foldl_nil] at hq
  obtain ⟨r, hr, hrq⟩ := List.mem_filterMap.1 hq
  obtain ⟨p, _, hpr⟩ := List.mem_filterMap.1 hr
  have h1 := rewrite_rewrite hT hpr
  unfold LocTables.rewrite at hrq
  split at hrq
  · cases hrq
  · rw [hA.1] at hrq
    simp only [assoc, Option.some.injEq] at hrq
    cases hl : assoc S.locations r.1 with
    | none => rw [hl] at hrq; subst hrq; exact h1
    | some l =>
      rw [hl] at hrq
      subst hrq
      have hno := assoc_none_of hA.2 hl
      unfold LocTables.rewrite at h1 ⊢
      split at h1
      · cases h1
      · next hd =>
        rw [if_neg hd]
        simp only [Option.some.injEq, Prod.ext_iff] at h1 ⊢
        refine ⟨h1.1, ?_⟩
        rw [h1.1, hno]

theorem fixed_second {T S : LocTables} (hS : S.Stable) (ps : List (String × String)) :
    (rewriteAll [T, S] ps).filterMap S.rewrite = rewriteAll [T, S] ps := filterMap_rewrite hS _

/-! ### Versions -/

/-- The version pass changes nothing. -/
def VerFixed (m : List (String × String)) (alts : List XAlt) (g : Elem → Elem) (t : Node) : Prop :=
  ∀ c ∈ t.elems, alts.any (fun a => a.selects m c) = true → g c.e = c.e

theorem ver_idle {m : List (String × String)} {alts : List XAlt} {g : Elem → Elem} {t : Node} (h : VerFixed m alts g t) :
    t.edit (versionEdit m alts g) = t := by
  refine edit_self (fun c hc => ?_)
  unfold versionEdit
  split
  · next hs => exact h c hc hs
  · rfl

/-- The path looks at names and, perhaps, at attributes outside `L`. -/
def PlainAlts (L : List QName) (alts : List XAlt) : Prop :=
  ∀ a ∈ alts, match a.pred with
    | .none => True
    | .hasAttr s => QName.plain s ∉ L
    | .hasChild _ => False

instance (L : List QName) (alts : List XAlt) : Decidable (PlainAlts L alts) := by
  unfold PlainAlts
  have : ∀ a : XAlt, Decidable (match a.pred with
    | .none => True
    | .hasAttr s => QName.plain s ∉ L
    | .hasChild _ => False) := by
    intro a
    split <;> infer_instance
  infer_instance

theorem selects_plain {L : List QName} {m : List (String × String)} {alts : List XAlt} (hp : PlainAlts L alts) {c c' : Ctx}
    (h1 : c'.anc = c.anc) (h2 : c'.e.tag = c.e.tag) (h3 : ∀ k, k ∉ L → c'.e.get? k = c.e.get? k) :
    alts.any (fun a => a.selects m c') = alts.any (fun a => a.selects m c) := by
  have h : ∀ a ∈ alts, a.selects m c' = a.selects m c := by
    intro a ha
    have hpa := hp a ha
    unfold XAlt.selects
    rw [h1, h2]
    congr 1
    unfold XPred.holds
    split at hpa
    · next e => rw [e]
    · next s e => rw [e]; simp only [Elem.has_eq, h3 _ hpa]
    · cases hpa
  clear hp
  induction alts with
  | nil => rfl
  | cons a l ih =>
    simp only [List.any_cons]
    rw [h a (by simp), ih (fun b hb => h b (by simp [hb]))]

theorem ver_done {m : List (String × String)} {alts : List XAlt} {g : Elem → Elem} (hp : PlainAlts [] alts)
    (hk : ∀ e, (g e).tag = e.tag ∧ (g e).decls = e.decls) (hg : ∀ e, g (g e) = g e) (t : Node) :
    VerFixed m alts g (t.edit (versionEdit m alts g)) := by
  intro c' hc' hs
  rw [elems_edit (keeps_version hk)] at hc'
  obtain ⟨c, hc, rfl⟩ := List.mem_map.1 hc'
  show g (versionEdit m alts g c) = versionEdit m alts g c
  cases hb : alts.any (fun a => a.selects m c) with
  | true => simp only [versionEdit, hb, if_true]; exact hg _
  | false =>
    have : versionEdit m alts g c = c.e := by simp only [versionEdit, hb, Bool.false_eq_true, if_false]
    rw [selects_plain (c := c) (c' := c.upd (versionEdit m alts g)) hp rfl (congrArg Elem.tag this) (fun k _ => congrArg (fun e => e.get? k) this), hb] at hs
    cases hs

theorem ver_rel {L : List QName} {m : List (String × String)} {alts : List XAlt} {g : Elem → Elem} (hp : PlainAlts L alts)
    (hg : ∀ e e', SameData L e e' → g e = e → g e' = e') {t t' : Node} (hr : Node.Rel (SameData L) t t') (h : VerFixed m alts g t) :
    VerFixed m alts g t' := by
  intro c' hc' hs
  obtain ⟨c, hc, _, ha, he, _⟩ := rel_walk_env (P := SameData L) (fun _ _ h => ⟨h.1, h.2.1⟩) hr c' hc'
  rw [selects_plain (c := c) hp ha he.1 (fun k hk => get_of_filter hk he.2.2.2)] at hs
  exact hg _ _ he (h c hc hs)

theorem setStix_twice (i v : String) (e : Elem) : setStixVersion i v (setStixVersion i v e) = setStixVersion i v e := by
  unfold setStixVersion
  exact elem_set_self (by rw [Elem.get?_set, if_pos rfl]; rfl)

theorem setStix_fixed {i v : String} {L : List QName} (hL : attrVersion ∉ L) {e e' : Elem} (hs : SameData L e e')
    (h : setStixVersion i v e = e) : setStixVersion i v e' = e' := by
  unfold setStixVersion at h ⊢
  refine elem_set_self ?_
  rw [hs.1]
  have h1 : e'.get? attrVersion = e.get? attrVersion := get_of_filter hL hs.2.2.2
  rw [h1, ← h, Elem.get?_set, if_pos rfl]
  rfl

theorem set201_iff {e : Elem} : setVersion201 e = e ↔ e.get? attrMajor = some "2" ∧ e.get? attrMinor = some "0" ∧ e.get? attrUpdate = some "1" := by
  constructor
  · intro h
    rw [← h]
    unfold setVersion201
    simp [Elem.get?_set, attrMajor, attrMinor, attrUpdate, QName.plain]
  · rintro ⟨h1, h2, h3⟩
    unfold setVersion201
    rw [elem_set_self h1, elem_set_self h2, elem_set_self h3]

theorem set21_iff {e : Elem} : setVersion21 e = e ↔ e.get? attrMajor = some "2" ∧ e.get? attrMinor = some "1" ∧ e.get? attrUpdate = none := by
  constructor
  · intro h
    rw [← h]
    unfold setVersion21
    simp [Elem.get?_set, Elem.get?_del, attrMajor, attrMinor, attrUpdate, QName.plain]
  · rintro ⟨h1, h2, h3⟩
    unfold setVersion21
    rw [elem_set_self h1, elem_set_self h2, elem_del_self h3]

theorem set201_twice (e : Elem) : setVersion201 (setVersion201 e) = setVersion201 e :=
  set201_iff.2 (by unfold setVersion201; simp [Elem.get?_set, attrMajor, attrMinor, attrUpdate, QName.plain])

theorem set21_twice (e : Elem) : setVersion21 (setVersion21 e) = setVersion21 e :=
  set21_iff.2 (by unfold setVersion21; simp [Elem.get?_set, Elem.get?_del, attrMajor, attrMinor, attrUpdate, QName.plain])

theorem set201_fixed {L : List QName} (hL : attrMajor ∉ L ∧ attrMinor ∉ L ∧ attrUpdate ∉ L) {e e' : Elem} (hs : SameData L e e')
    (h : setVersion201 e = e) : setVersion201 e' = e' := by
  have hg : ∀ k, k ∉ L → e'.get? k = e.get? k := fun k hk => get_of_filter hk hs.2.2.2
  rw [set201_iff] at h ⊢
  rw [hg _ hL.1, hg _ hL.2.1, hg _ hL.2.2]
  exact h

theorem set21_fixed {L : List QName} (hL : attrMajor ∉ L ∧ attrMinor ∉ L ∧ attrUpdate ∉ L) {e e' : Elem} (hs : SameData L e e')
    (h : setVersion21 e = e) : setVersion21 e' = e' := by
  have hg : ∀ k, k ∉ L → e'.get? k = e.get? k := fun k hk => get_of_filter hk hs.2.2.2
  rw [set21_iff] at h ⊢
  rw [hg _ hL.1, hg _ hL.2.1, hg _ hL.2.2]
  exact h

/-! ### Passes that keep the shape -/

/-- Attributes in `L` may differ; another text is a corrected term. -/
def Carry (L : List QName) (e e' : Elem) : Prop := SameData L e e' ∧ (e'.text = e.text ∨ ∃ p ∈ correctedTerms, e'.text = some p.2)

theorem sameData_mono {L L' : List QName} (h : ∀ k ∈ L, k ∈ L') {e e' : Elem} (hs : SameData L e e') : SameData L' e e' := by
  refine ⟨hs.1, hs.2.1, hs.2.2.1, ?_⟩
  have key : ∀ as : Attrs, as.filter (fun a => decide (a.1 ∉ L')) = (as.filter (fun a => decide (a.1 ∉ L))).filter (fun a => decide (a.1 ∉ L')) := by
    intro as
    rw [List.filter_filter]
    apply List.filter_congr
    intro a _
    by_cases ha : a.1 ∈ L
    · simp [ha, h _ ha]
    · simp [ha]
  rw [key, hs.2.2.2, ← key]

theorem carry_trans {L : List QName} {a b c : Elem} (h : Carry L a b) (g : Carry L b c) : Carry L a c := by
  refine ⟨h.1.trans g.1, ?_⟩
  rcases g.2 with e | e
  · rcases h.2 with e' | ⟨p, hp, e'⟩
    · exact Or.inl (e.trans e')
    · exact Or.inr ⟨p, hp, e.trans e'⟩
  · exact Or.inr e

theorem rel_carry_trans {L : List QName} {a b c : Node} (h : Node.Rel (Carry L) a b) (g : Node.Rel (Carry L) b c) : Node.Rel (Carry L) a c :=
  Node.Rel.comp (P := Carry L) (Q := Carry L) (R := Carry L) (fun _ _ _ => carry_trans) h g

theorem carry_mono {L L' : List QName} (h : ∀ k ∈ L, k ∈ L') {a b : Node} (hr : Node.Rel (Carry L) a b) : Node.Rel (Carry L') a b :=
  rel_mono (fun _ _ hc => ⟨sameData_mono h hc.1, hc.2⟩) hr

theorem carry_same {L : List QName} {a b : Node} (hr : Node.Rel (Carry L) a b) : Node.Rel (SameData L) a b :=
  rel_mono (fun _ _ hc => hc.1) hr

theorem carry_vocabs {b : Bool} {vs : List Vocab} (hv : ∀ v ∈ vs, ∀ p ∈ v.terms, p ∈ correctedTerms) {t t' : Node}
    (h : (if b then updateVocabs vs t else .ok t) = .ok t') : Node.Rel (Carry vocabNames) t t' :=
  rel_mono (fun _ _ hc => ⟨hc.1, hc.2.2.imp id (fun ⟨p, hp, _, e⟩ => ⟨p, hp, e⟩)⟩) (vocabsIf_rel hv h)

theorem carry_schemaloc (u : Cls) (t : Node) : Node.Rel (Carry vocabNames) t (u.updateSchemalocs t) := by
  rw [updateSchemalocs_eq]
  refine rel_mapCtx (fun c => ?_) [] [] [] t
  unfold schemalocEdit
  split
  · unfold Cls.updateSchemalocsElem
    split
    · exact ⟨SameData.refl _ _, Or.inl rfl⟩
    · exact ⟨SameData.set (by decide) _ _, Or.inl rfl⟩
  · exact ⟨SameData.refl _ _, Or.inl rfl⟩

theorem carry_stix (i v : String) (m : List (String × String)) (alts : List XAlt) (t : Node) :
    Node.Rel (Carry [attrVersion]) t (t.edit (versionEdit m alts (setStixVersion i v))) := by
  refine rel_mapCtx (fun c => ?_) [] [] [] t
  unfold versionEdit setStixVersion
  split
  · exact ⟨SameData.set (by decide) _ _, Or.inl rfl⟩
  · exact ⟨SameData.refl _ _, Or.inl rfl⟩

theorem same_lists (m : List (String × String)) (t : Node) : Node.Rel (SameData []) t (t.edit (listsEdit m)) := by
  refine rel_mapCtx (fun c => ?_) [] [] [] t
  obtain ⟨h1, h2, h3, h4⟩ := iter_lists_keeps (propsDepth (XName.resolve m ⟨"cybox", "Object"⟩) (XName.resolve m ⟨"cybox", "Properties"⟩) c.anc) c.e
  exact ⟨h1, h2, h4, by unfold listsEdit; rw [h3]⟩

/-! ### Lists -/

/-- The list pass finds nothing to do. -/
def ListsDone (t : Node) : Prop :=
  ∀ c ∈ t.elems, (∃ i, PropsAt c.anc i) → ∀ s, c.e.text = some s → ',' ∉ s.toList ∧ ¬ "&comma;".toList <:+: s.toList

theorem lists_idle {m : List (String × String)}
    (hm : XName.resolve m ⟨"cybox", "Object"⟩ = ⟨some "http://cybox.mitre.org/cybox-2", "Object"⟩ ∧
      XName.resolve m ⟨"cybox", "Properties"⟩ = ⟨some "http://cybox.mitre.org/cybox-2", "Properties"⟩) {t : Node} (h : ListsDone t) :
    t.edit (listsEdit m) = t := by
  refine lists_silent (p := { lists := true }) rfl hm (fun c hc hm => ?_)
  rcases hm with h1 | ⟨q, hq, _⟩ | ⟨n, hn', _⟩ | ⟨ty, hty, _⟩ | ⟨h1, _⟩ | ⟨h1, _⟩ | ⟨_, hi, s, h3, h4⟩
  · cases h1
  · cases hq
  · cases hn'
  · cases hty
  · cases h1
  · cases h1
  · obtain ⟨g1, g2⟩ := h c hc hi s h3
    exact h4.elim g1 g2

theorem markers_nocomma : ∀ s : List Char, ',' ∉ replaceAux [','] "##comma##".toList 0 s
  | [] => by simp [replaceAux]
  | c :: cs => by
    by_cases h : c = ','
    · subst h
      have : replaceAux [','] "##comma##".toList 0 (',' :: cs) = "##comma##".toList ++ replaceAux [','] "##comma##".toList 0 cs := by
        simp [replaceAux, List.isPrefixOf]
      rw [this, List.mem_append]
      exact fun hm => hm.elim (by decide) (markers_nocomma cs)
    · have : replaceAux [','] "##comma##".toList 0 (c :: cs) = c :: replaceAux [','] "##comma##".toList 0 cs := by
        simp [replaceAux, List.isPrefixOf, Ne.symm h]
      rw [this, List.mem_cons]
      exact fun hm => hm.elim (fun e => h e.symm) (markers_nocomma cs)

theorem markers_cons (c : Char) (cs : List Char) : replaceAux [','] "##comma##".toList 0 (c :: cs) =
    if c = ',' then "##comma##".toList ++ replaceAux [','] "##comma##".toList 0 cs else c :: replaceAux [','] "##comma##".toList 0 cs := by
  by_cases h : c = ','
  · subst h; simp [replaceAux, List.isPrefixOf]
  · simp [replaceAux, List.isPrefixOf, Ne.symm h, h]

theorem markers_prefix : ∀ {s p : List Char}, '#' ∉ p → p <+: replaceAux [','] "##comma##".toList 0 s → p <+: s
  | s, [], _, _ => List.nil_prefix
  | [], x :: p, _, h => by simp [replaceAux] at h
  | c :: cs, x :: p, hn, h => by
    rw [markers_cons] at h
    split at h
    · rw [show "##comma##".toList = '#' :: "#comma##".toList by decide, List.cons_append, List.cons_prefix_cons] at h
      exact absurd (by simp [h.1]) hn
    · rw [List.cons_prefix_cons] at h ⊢
      exact ⟨h.1, markers_prefix (fun hm => hn (by simp [hm])) h.2⟩

theorem infix_skip {x : Char} {p r : List Char} : ∀ {l : List Char}, x ∉ l → x :: p <:+: l ++ r → x :: p <:+: r
  | [], _, h => h
  | c :: l, hn, h => by
    rw [List.cons_append, List.infix_cons_iff] at h
    rcases h with h | h
    · rw [List.cons_prefix_cons] at h
      exact absurd (by simp [h.1]) hn
    · exact infix_skip (fun hm => hn (by simp [hm])) h

theorem markers_infix : ∀ {s : List Char}, "&comma;".toList <:+: replaceAux [','] "##comma##".toList 0 s → "&comma;".toList <:+: s
  | [], h => by simp [replaceAux] at h
  | c :: cs, h => by
    rw [markers_cons] at h
    split at h
    · rw [show "&comma;".toList = '&' :: "comma;".toList by decide] at h ⊢
      have := infix_skip (by decide) h
      rw [← show "&comma;".toList = '&' :: "comma;".toList by decide] at this ⊢
      exact (markers_infix this).trans (List.suffix_cons c cs).isInfix
    · next hc =>
      rw [List.infix_cons_iff] at h ⊢
      rcases h with h | h
      · refine Or.inl (markers_prefix (s := c :: cs) (by decide) ?_)
        rw [markers_cons, if_neg hc]
        exact h
      · exact Or.inr (markers_infix h)

theorem listText_clean {s : String} (h : ¬ "&comma;".toList <:+: s.toList) :
    ',' ∉ (updateListText s).toList ∧ ¬ "&comma;".toList <:+: (updateListText s).toList := by
  have e : (updateListText s).toList = replaceAux [','] "##comma##".toList 0 s.toList := by
    unfold updateListText pyReplace
    rw [show ",".toList = [','] by decide]
    have hR : ¬ "&comma;".toList <:+: replaceAux [','] "##comma##".toList 0 s.toList := fun hi => h (markers_infix hi)
    generalize replaceAux [','] "##comma##".toList 0 s.toList = R at hR
    rw [String.toList_ofList (l := R), replaceAux_none hR, String.toList_ofList (l := R)]
  rw [e]
  exact ⟨markers_nocomma _, fun hi => h (markers_infix hi)⟩

theorem propsDepth_pos {anc : List QName} {i : Nat} (h : PropsAt anc i) :
    ∃ n, propsDepth ⟨some "http://cybox.mitre.org/cybox-2", "Object"⟩ ⟨some "http://cybox.mitre.org/cybox-2", "Properties"⟩ anc = n + 1 := by
  induction anc generalizing i with
  | nil => simp [PropsAt] at h
  | cons q qs ih =>
    cases i with
    | zero =>
      simp only [PropsAt, List.getElem?_cons_zero, Option.some.injEq, Nat.zero_add, List.getElem?_cons_succ] at h
      refine ⟨propsDepth ⟨some "http://cybox.mitre.org/cybox-2", "Object"⟩ ⟨some "http://cybox.mitre.org/cybox-2", "Properties"⟩ qs, ?_⟩
      simp only [propsDepth]
      rw [if_pos ⟨h.1, by rw [List.head?_eq_getElem?]; exact h.2⟩, Nat.add_comm]
    | succ i =>
      obtain ⟨n, hn⟩ := ih (i := i) (by simpa [PropsAt] using h)
      simp only [propsDepth, hn]
      exact ⟨_, (Nat.add_assoc _ _ _).symm⟩

theorem iter_clean {s : String} (h : ¬ "&comma;".toList <:+: s.toList) : ∀ n, ∃ s', iter (Option.map updateListText) (n + 1) (some s) = some s' ∧
    ',' ∉ s'.toList ∧ ¬ "&comma;".toList <:+: s'.toList
  | 0 => ⟨updateListText s, rfl, listText_clean h⟩
  | n + 1 => by
    obtain ⟨s', h1, h2, h3⟩ := iter_clean h n
    refine ⟨updateListText s', ?_, listText_clean h3⟩
    rw [iter, h1]
    rfl

theorem lists_done {m : List (String × String)}
    (hm : XName.resolve m ⟨"cybox", "Object"⟩ = ⟨some "http://cybox.mitre.org/cybox-2", "Object"⟩ ∧
      XName.resolve m ⟨"cybox", "Properties"⟩ = ⟨some "http://cybox.mitre.org/cybox-2", "Properties"⟩) {t : Node} (h : NoEscapes t) :
    ListsDone (t.edit (listsEdit m)) := by
  intro c' hc' ⟨i, hi⟩ s' hs'
  rw [elems_edit (keeps_lists m)] at hc'
  obtain ⟨c, hc, rfl⟩ := List.mem_map.1 hc'
  have hi' : PropsAt c.anc i := hi
  have ht : (listsEdit m c).text = some s' := hs'
  unfold listsEdit at ht
  rw [hm.1, hm.2] at ht
  obtain ⟨n, hn⟩ := propsDepth_pos hi'
  rw [hn, iter_lists_text] at ht
  cases hx : c.e.text with
  | none =>
    have : ∀ n, iter (Option.map updateListText) n none = none := by
      intro n
      induction n with
      | zero => rfl
      | succ n ih => rw [iter, ih]; rfl
    rw [hx, this] at ht
    cases ht
  | some s =>
    obtain ⟨s'', h1, h2⟩ := iter_clean (h c hc ⟨i, hi'⟩ s hx) n
    rw [hx, h1] at ht
    cases ht
    exact h2

theorem corrected_plain : ∀ p ∈ correctedTerms, ',' ∉ p.2.toList ∧ '&' ∉ p.2.toList := by decide +kernel

theorem lists_carry {L : List QName} {t t' : Node} (hr : Node.Rel (Carry L) t t') (h : ListsDone t) : ListsDone t' := by
  intro c' hc' hi s hs
  obtain ⟨c, hc, _, ha, he, _⟩ := rel_walk_env (P := Carry L) (fun _ _ h => ⟨h.1.1, h.1.2.1⟩) hr c' hc'
  rcases he.2 with e | ⟨p, hp, e⟩
  · exact h c hc (by rw [← ha]; exact hi) s (by rw [← e]; exact hs)
  · rw [e] at hs
    cases hs
    obtain ⟨h1, h2⟩ := corrected_plain p hp
    exact ⟨h1, fun hx => h2 (hx.subset (by decide))⟩

theorem escapes_back {L : List QName} {t t' : Node} (hr : Node.Rel (fun e e' => SameData L e e' ∧ e'.text = e.text) t t') (h : NoEscapes t) :
    NoEscapes t' := by
  intro c' hc' hi s hs
  obtain ⟨c, hc, _, ha, he, _⟩ := rel_walk_env (P := fun e e' => SameData L e e' ∧ e'.text = e.text) (fun _ _ h => ⟨h.1.1, h.1.2.1⟩) hr c' hc'
  exact h c hc (by rw [← ha]; exact hi) s (by rw [← he.2]; exact hs)

/-! ### Vocabularies -/

/-- No outdated type is left. -/
def VocabsDone (rows : List VocabRow) (t : Node) : Prop := ∀ c ∈ t.elems, ∀ row ∈ rows, ∀ p, ¬ Outdated row p c

theorem outdated_rel {L : List QName} (hL : tagXsiType ∉ L) {rows : List VocabRow} {t t' : Node} (hr : Node.Rel (SameData L) t t')
    (h : VocabsDone rows t) : VocabsDone rows t' := by
  intro c' hc' row hrow p ho
  obtain ⟨c, hc, hv, ha, he, _⟩ := rel_walk_env (P := SameData L) (fun _ _ h => ⟨h.1, h.2.1⟩) hr c' hc'
  refine h c hc row hrow p ?_
  obtain ⟨h1, ty, h2, h3⟩ := ho
  exact ⟨by rw [← ha]; exact h1, ty, h2, (typedAs_congr (c' := c') (c := c) hv (get_of_filter hL he.2.2.2)).1 h3⟩

theorem vocabsIf_idle {b : Bool} {vs : List Vocab} {rows : List VocabRow} (hm : MatchesAll vs rows) {t : Node}
    (h : b = true → VocabsDone rows t ∧ WellTyped t) : (if b then updateVocabs vs t else .ok t) = .ok t := by
  cases b with
  | false => rfl
  | true => exact vocabs_idle hm (h rfl).1 (fun _ => (h rfl).2)

theorem vocabsIf_done {b : Bool} {vs : List Vocab} {rows : List VocabRow} (hm : MatchesAll vs rows) (hs : Stable rows) (hne : vs ≠ [])
    {t t' : Node} (h : (if b then updateVocabs vs t else .ok t) = .ok t') : b = true → VocabsDone rows t' ∧ WellTyped t' := by
  rintro rfl
  exact ⟨updateVocabs_clears hm hs h, updateVocabs_wellTyped hm hs h hne⟩

/-! ### Namespaces -/

/-- No name is in a namespace that the step renames. -/
def NsDone (u : Cls) (t : Node) : Prop := ∀ c ∈ t.elems, u.nsUpdated c.e.tag = false

theorem ns_idle {u : Cls} {t : Node} (h : NsDone u t) : u.updateNamespaces [] t = t := by
  rw [updateNamespaces_eq]
  refine edit_self (fun c hc => ?_)
  unfold nsEdit
  rw [h c hc]
  rfl

theorem ns_done {u : Cls} (hu : ∀ p ∈ u.updateNsMap, assoc u.updateNsMap p.2 = none) (t : Node) : NsDone u (u.updateNamespaces [] t) := by
  intro c' hc'
  rw [updateNamespaces_eq] at hc'
  obtain ⟨c, hc, _, he, _⟩ := mem_edit hc'
  rw [he]
  unfold nsEdit
  cases hn : u.nsUpdated c.e.tag with
  | false => simpa using hn
  | true =>
    simp only [if_true, Cls.updateNsmapElem]
    unfold Cls.nsUpdated at hn ⊢
    unfold Cls.remappedTag
    cases hns : c.e.tag.ns with
    | none => rfl
    | some n =>
      rw [hns] at hn
      obtain ⟨v, hv⟩ := Option.isSome_iff_exists.1 hn
      simp only [Option.map_some, hv, Option.getD_some]
      rw [hu _ (assoc_mem hv)]
      rfl

theorem ns_rel {u : Cls} {P : Elem → Elem → Prop} (hP : ∀ e e', P e e' → e'.tag = e.tag ∧ e'.decls = e.decls) {t t' : Node}
    (hr : Node.Rel P t t') (h : NsDone u t) : NsDone u t' := by
  intro c' hc'
  obtain ⟨c, hc, _, _, he, _⟩ := rel_walk_env hP hr c' hc'
  rw [(hP _ _ he).1]
  exact h c hc

/-! ### Steps without translations -/

theorem again_stix111 {o : Options} {t t' : Node} (h : stix111.update o t = .ok t') : stix111.update o t' = .ok t' := by
  have hloc : LocFixed stix111Cls.locTables t' :=
    rewriteAll_fixed (stepTables_wordy (w := w0) .stix111) (by simp) (StepTables.stix111 (w := w0)) (fixed_one (stable_none _ _)) h
  simp only [stix111, stix111Update] at h ⊢
  rw [stixVersions_eq] at h ⊢
  have hr := carry_vocabs (by decide) h
  have hver : VerFixed stix111Cls.nsmap stix111Cls.xpathVersioned (setStixVersion "2.2" "1.2") t' :=
    ver_rel (L := vocabNames) (by decide) (fun _ _ hs he => setStix_fixed (by decide) hs he) (carry_same hr)
      (ver_done (by decide) (setStixVersion_keeps _ _) (setStix_twice _ _) _)
  rw [loc_idle hloc, ver_idle hver]
  exact vocabsIf_idle (stepRows_matches (w := w0) .stix111)
    (vocabsIf_done (stepRows_matches (w := w0) .stix111) (stepRows_stable (w := w0) .stix111) (by simp [stix111, stix111Cls]) h)

theorem again_stix12 {o : Options} {t t' : Node} (h : stix12.update o t = .ok t') : stix12.update o t' = .ok t' := by
  have hloc : LocFixed stix12Cls.locTables t' :=
    rewriteAll_fixed (stepTables_wordy (w := w0) .stix12) (by simp) (StepTables.stix12 (w := w0)) (fixed_one stable_stix12) h
  simp only [stix12, stix12Update, Except.ok.injEq] at h ⊢
  have h1 := ns_rel (u := stix12Cls) (fun _ _ h => ⟨h.1.1, h.1.2.1⟩) (carry_schemaloc stix12Cls (stix12Cls.updateNamespaces [] t))
    (ns_done (by decide +kernel) t)
  have hns : NsDone stix12Cls t' := by
    rw [← h]
    generalize stix12Cls.updateSchemalocs (stix12Cls.updateNamespaces [] t) = d at h1
    cases d with
    | other _ _ => exact h1
    | elem e ks =>
      refine ns_rel (P := SameData [attrVersion]) (fun _ _ h => ⟨h.1, h.2.1⟩) (t := .elem e ks) ?_ h1
      simp only [setRootVersion, Node.Rel]
      exact ⟨SameData.set (by decide) _ _, (rel_refl (SameData.refl _) (.elem e ks)).2⟩
  rw [ns_idle hns, loc_idle hloc]
  rw [← h]
  generalize stix12Cls.updateSchemalocs (stix12Cls.updateNamespaces [] t) = d
  cases d with
  | other _ _ => rfl
  | elem e ks =>
    simp only [setRootVersion]
    rw [elem_set_self (by rw [Elem.get?_set, if_pos rfl])]

/-- What the embedded or stand-alone CybOX 2.0 updater leaves, apart from schema locations. -/
theorem left20 {n : List (String × String)} {sel : List XAlt} (hsel : PlainAlts [] sel)
    (hn : XName.resolve n ⟨"cybox", "Object"⟩ = ⟨some "http://cybox.mitre.org/cybox-2", "Object"⟩ ∧
      XName.resolve n ⟨"cybox", "Properties"⟩ = ⟨some "http://cybox.mitre.org/cybox-2", "Properties"⟩)
    {o : Options} {t t' : Node} (h : cybox20Update (cybox20Cls n sel) o t = .ok t') (ht : NoEscapes t) :
    (PlainAlts vocabNames sel → VerFixed n sel setVersion201 t') ∧ ListsDone t' ∧
      ∀ rows, StepRows w0 cybox20 rows → o.updateVocabularies = true → VocabsDone rows t' ∧ WellTyped t' := by
  simp only [cybox20Update] at h
  rw [cybox20Versions_eq, updateLists_eq] at h
  have r1 := rel_stamped_trans (stamped_schemaloc (cybox20Cls n sel) t)
    (stamped_versions (m := (cybox20Cls n sel).nsmap) (alts := (cybox20Cls n sel).xpathVersioned) stamped_201 _)
  have hv : VerFixed n sel setVersion201 _ :=
    ver_done (m := n) hsel setVersion201_keeps set201_twice ((cybox20Cls n sel).updateSchemalocs t)
  have hl := lists_done hn (escapes_back (L := stampNames) (rel_mono (fun _ _ he => he.1) r1) ht)
  have hv2 := ver_rel (m := n) hsel (fun _ _ hs he => set201_fixed (by decide) hs he) (same_lists n _) hv
  have hc := carry_vocabs (by
    show ∀ v ∈ (cybox20Cls [] []).vocabs, ∀ p ∈ v.terms, p ∈ correctedTerms
    decide) h
  refine ⟨fun hs' => ver_rel hs' (fun _ _ hs he => set201_fixed (by decide) hs he) (carry_same hc) hv2, lists_carry hc hl, ?_⟩
  intro rows hrows hb
  exact vocabsIf_done (stepRows_matches hrows) (stepRows_stable hrows) (by simp [cybox20, cybox20Cls]) h hb

theorem settled20 {n : List (String × String)} {sel : List XAlt}
    (hn : XName.resolve n ⟨"cybox", "Object"⟩ = ⟨some "http://cybox.mitre.org/cybox-2", "Object"⟩ ∧
      XName.resolve n ⟨"cybox", "Properties"⟩ = ⟨some "http://cybox.mitre.org/cybox-2", "Properties"⟩)
    {o : Options} {t : Node} (h1 : LocFixed (cybox20Cls n sel).locTables t) (h2 : VerFixed n sel setVersion201 t) (h3 : ListsDone t)
    {rows : List VocabRow} (hrows : StepRows w0 cybox20 rows) (h4 : o.updateVocabularies = true → VocabsDone rows t ∧ WellTyped t) :
    cybox20Update (cybox20Cls n sel) o t = .ok t := by
  simp only [cybox20Update]
  rw [cybox20Versions_eq, updateLists_eq, loc_idle h1,
    ver_idle (m := (cybox20Cls n sel).nsmap) (alts := (cybox20Cls n sel).xpathVersioned) h2, lists_idle (m := (cybox20Cls n sel).nsmap) hn h3]
  exact vocabsIf_idle (stepRows_matches hrows) h4

theorem again_cybox20 {o : Options} {t t' : Node} (h : cybox20.update o t = .ok t') (ht : NoEscapes t) : cybox20.update o t' = .ok t' := by
  have hloc : LocFixed (cybox20Cls Tables.cybox20_nsmap xpathObservables).locTables t' :=
    rewriteAll_fixed (stepTables_wordy (w := w0) .cybox20) (by simp) (StepTables.cybox20 (w := w0)) (fixed_one (stable_none _ _)) h
  obtain ⟨h1, h2, h3⟩ := left20 (n := Tables.cybox20_nsmap) (sel := xpathObservables) (by decide) (by decide +kernel) h ht
  exact settled20 (by decide +kernel) hloc (h1 (by decide)) h2 .cybox20 (h3 _ .cybox20)

theorem apart_10 : LocTables.Apart ⟨[], [], Tables.cybox20_schemalocMap⟩ ⟨Tables.stix10_disallowedNs, [], Tables.stix10_schemalocMap⟩ :=
  ⟨rfl, by decide +kernel⟩

theorem again_stix10 {o : Options} {t t' : Node} (h : stix10.update o t = .ok t') (ht : NoEscapes t) : stix10.update o t' = .ok t' := by
  have hl1 : LocFixed stix10Cybox.locTables t' :=
    rewriteAll_fixed (stepTables_wordy (w := w0) .stix10) (by simp) (StepTables.stix10 (w := w0))
      (fixed_first (stable_none _ _) apart_10) h
  have hl2 : LocFixed stix10Cls.locTables t' :=
    rewriteAll_fixed (stepTables_wordy (w := w0) .stix10) (by simp) (StepTables.stix10 (w := w0)) (fixed_second (stable_none _ _)) h
  simp only [stix10, stix10Update] at h ⊢
  split at h
  · cases h
  · next t1 h1 =>
    obtain ⟨g1, g2, g3⟩ := left20 (n := joinNsmap Tables.stix10_nsmap Tables.cybox20_nsmap) (sel := stix10Selectors) (by decide)
      (by decide +kernel) h1 ht
    rw [updateNamespaces_none (u := stix10Cls) rfl, stixVersions_eq] at h
    have c1 : Node.Rel (Carry (attrVersion :: vocabNames)) t1 _ := rel_carry_trans (carry_mono (by decide) (carry_schemaloc stix10Cls t1))
      (carry_mono (by decide) (carry_stix "2.0.1" "1.0.1" stix10Cls.nsmap stix10Cls.xpathVersioned _))
    have c2 := carry_vocabs (by decide) h
    have c3 := rel_carry_trans c1 (carry_mono (by decide) c2)
    have hv1 := ver_rel (L := attrVersion :: vocabNames) (by decide) (fun _ _ hs he => set201_fixed (by decide) hs he) (carry_same c3)
      (g1 (by decide))
    have hv2 := ver_rel (L := vocabNames) (by decide) (fun _ _ hs he => setStix_fixed (by decide) hs he) (carry_same c2)
      (ver_done (m := stix10Cls.nsmap) (alts := stix10Cls.xpathVersioned) (by decide) (setStixVersion_keeps "2.0.1" "1.0.1") (setStix_twice _ _) _)
    have hd := vocabsIf_done (stepRows_matches (w := w0) .stix10) (stepRows_stable (w := w0) .stix10) (by simp [stix10, stix10Cls]) h
    have he : cybox20Update stix10Cybox o t' = .ok t' := by
      refine settled20 (by decide +kernel) hl1 hv1 (lists_carry c3 g2) .cybox20 (fun hb => ⟨?_, (hd hb).2⟩)
      intro c' hc' row hrow p ho
      rw [hb] at h
      obtain ⟨c, hc, ho2⟩ := updateVocabs_foreign (stepRows_matches (w := w0) .stix10) (stepRows_stable (w := w0) .stix10) h (row := row) (by
        intro r' hr'
        rw [cybox20_rows (w := w0) .cybox20 rfl row hrow]
        simp only [List.mem_cons, List.not_mem_nil, or_false] at hr'
        rcases hr' with rfl | rfl <;> decide) hc' ho
      refine outdated_rel (L := [attrVersion]) (by decide) (carry_same (carry_stix "2.0.1" "1.0.1" stix10Cls.nsmap stix10Cls.xpathVersioned _)) ?_ c hc row hrow p ho2
      refine outdated_rel (L := [tagSchemaLoc]) (by decide) ?_ (g3 _ .cybox20 hb).1
      rw [updateSchemalocs_eq]
      refine rel_mapCtx (fun c => ?_) [] [] [] t1
      unfold schemalocEdit Cls.updateSchemalocsElem
      split
      · split
        · exact SameData.refl _ _
        · exact SameData.set (by decide) _ _
      · exact SameData.refl _ _
    rw [he]
    simp only
    rw [updateNamespaces_none (u := stix10Cls) rfl, stixVersions_eq, loc_idle hl2, ver_idle hv2]
    exact vocabsIf_idle (stepRows_matches (w := w0) .stix10) hd

/-! ### Removing elements -/

/-- Every element of `t'` stands in `t` with the same name, attributes, text, name space bindings and ancestors. -/
def Part (t t' : Node) : Prop := ∀ c' ∈ t'.elems, ∃ c ∈ t.elems, c'.e = c.e ∧ c'.env = c.env ∧ c'.anc = c.anc

theorem selects_part {m : List (String × String)} {alts : List XAlt} (hp : PlainAlts [] alts) {c c' : Ctx} (h1 : c'.e = c.e) (h2 : c'.anc = c.anc) :
    alts.any (fun a => a.selects m c') = alts.any (fun a => a.selects m c) :=
  selects_plain hp h2 (by rw [h1]) (fun _ _ => by rw [h1])

theorem ver_part {m : List (String × String)} {alts : List XAlt} {g : Elem → Elem} (hp : PlainAlts [] alts) {t t' : Node} (hs : Part t t')
    (h : VerFixed m alts g t) : VerFixed m alts g t' := by
  intro c' hc' hsel
  obtain ⟨c, hc, he, _, ha⟩ := hs c' hc'
  rw [selects_part hp he ha] at hsel
  rw [he]
  exact h c hc hsel

theorem typed_part {c c' : Ctx} (he : c'.e = c.e) (hv : c'.env = c.env) {p ty ns : String} : c'.TypedAs p ty ns ↔ c.TypedAs p ty ns := by
  unfold Ctx.TypedAs
  rw [he, hv]

theorem vocabs_part {rows : List VocabRow} {t t' : Node} (hs : Part t t') (h : VocabsDone rows t ∧ WellTyped t) :
    VocabsDone rows t' ∧ WellTyped t' := by
  constructor
  · intro c' hc' row hrow p ho
    obtain ⟨c, hc, he, hv, ha⟩ := hs c' hc'
    obtain ⟨h1, ty, h2, h3⟩ := ho
    exact h.1 c hc row hrow p ⟨by rw [← ha]; exact h1, ty, h2, (typed_part he hv).1 h3⟩
  · intro c' hc' h1 h2
    obtain ⟨c, hc, he, hv, ha⟩ := hs c' hc'
    obtain ⟨p, ty, ns, h3⟩ := h.2 c hc (by rw [← ha]; exact h1) (by rw [← he]; exact h2)
    exact ⟨p, ty, ns, (typed_part he hv).2 h3⟩

theorem nested_part {L : List (QName × QName)} {t t' : Node} (hs : Part t t') (h : NoneNested L t) : NoneNested L t' := by
  intro c' hc' q hq
  obtain ⟨c, hc, he, _, ha⟩ := hs c' hc'
  rw [he, ha]
  exact h c hc q hq

theorem nested_rel {L : List (QName × QName)} {P : Elem → Elem → Prop} (hP : ∀ e e', P e e' → e'.tag = e.tag ∧ e'.decls = e.decls) {t t' : Node}
    (hr : Node.Rel P t t') (h : NoneNested L t) : NoneNested L t' := by
  intro c' hc' q hq
  obtain ⟨c, hc, _, ha, he, _⟩ := rel_walk_env hP hr c' hc'
  rw [(hP _ _ he).1, ha]
  exact h c hc q hq

theorem generic_again {w : World} {t t' : Node} (h : removeOptionals (stix11Cls w).optionals t = .ok t') :
    removeOptionals (stix11Cls w).optionals t' = .ok t' := by
  have hp : Part t t' := mem_removeOptionals h
  simp only [stix11Cls, removeOptionals, foldE] at h ⊢
  cases hf : optionalGenericTM.find t with
  | error y => rw [hf] at h; cases h
  | ok l =>
    rw [hf] at h
    simp only [Except.ok.injEq] at h
    have hg := gone_positions (genericTM_find hf)
    rw [h] at hg
    have hc := genericTM_clean hg
    have : ∃ l', optionalGenericTM.find t' = .ok l' := by
      unfold Finder.find Finder.contexts at hf ⊢
      rw [if_neg (by simp [optionalGenericTM])] at hf ⊢
      cases hr : filterE optionalGenericTM.isContext (getTypedNodes t) with
      | error x => rw [hr] at hf; cases hf
      | ok r =>
        obtain ⟨r', hr'⟩ := filterE_ok (p := optionalGenericTM.isContext) (l := getTypedNodes t') (by
          intro c' hc'
          obtain ⟨h1, h2⟩ := List.mem_filter.1 hc'
          obtain ⟨h3, h4⟩ := mem_descs_iff.1 h1
          obtain ⟨c, g1, ge, gv, ga⟩ := hp c' h3
          obtain ⟨b, hb⟩ := (filterE_filter hr).1 c (List.mem_filter.2 ⟨mem_descs_iff.2 ⟨g1, by rw [← ga]; exact h4⟩, by rw [← ge]; exact h2⟩)
          obtain ⟨p, ty, ns, ht⟩ := isContext_ok hb
          exact ⟨_, isContext_typed ((typed_part ge gv).2 ht)⟩)
        rw [hr']
        exact ⟨_, rfl⟩
    obtain ⟨l', hl'⟩ := this
    have hn : l' = [] := by
      cases l' with
      | nil => rfl
      | cons x xs =>
        have := (genericTM_find hl' x).1 (by simp)
        exact absurd this.2 (hc x this.1)
    subst hn
    rw [hl']
    simp only [List.map_nil, Except.ok.injEq]
    rw [Node.removeAll]
    exact prune_none (fun p => by simp) t'

theorem fields11_nested {w : World} {t : Node} (h : NoneNested page11.nested t) : translateFields (stix11Cls w).translatable t = .ok t := by
  refine fields_nothing (fun f hf => ?_)
  have hl : ∀ a ∈ f.xpath, ∃ x ∈ page11.nested, a.tag.resolve f.nsmap = x.2 ∧ a.parent.map (XName.resolve f.nsmap) = some x.1 := by
    have h0 : ∀ f ∈ (stix11Cls w0).translatable, ∀ a ∈ f.xpath,
      ∃ x ∈ page11.nested, a.tag.resolve f.nsmap = x.2 ∧ a.parent.map (XName.resolve f.nsmap) = some x.1 := by decide +kernel
    simp only [stix11Cls, List.mem_cons, List.not_mem_nil, or_false] at hf
    rcases hf with rfl | rfl | rfl
    · exact h0 (transCommonSource w0) (by simp [stix11Cls])
    · exact h0 (transSightingsSource w0) (by simp [stix11Cls])
    · exact h0 transRelatedCampaign (by simp [stix11Cls])
  unfold Node.xpath
  rw [List.filter_eq_nil_iff]
  intro c hc hs
  obtain ⟨a, ha, hs⟩ := List.any_eq_true.1 hs
  unfold XAlt.selects at hs
  simp only [Bool.and_eq_true, decide_eq_true_eq] at hs
  obtain ⟨⟨h1, h2⟩, _⟩ := hs
  obtain ⟨x, hx, g1, g2⟩ := hl a ha
  cases hpar : a.parent with
  | none => rw [hpar] at g2; cases g2
  | some y =>
    rw [hpar] at g2 h2
    simp only [Option.map_some, Option.some.injEq] at g2
    simp only [Bool.and_eq_true, decide_eq_true_eq] at h2
    exact h c hc x hx ⟨by rw [h1]; exact g1, by rw [h2.1, g2]⟩

theorem apart_11 : LocTables.Apart ⟨[], Tables.cybox201_updateNsMap, Tables.cybox201_schemalocMap⟩ ⟨[], [], Tables.stix11_schemalocMap⟩ :=
  ⟨rfl, by decide +kernel⟩

theorem again_stix11 {w : World} {o : Options} {t t' : Node} (h : (stix11 w).update o t = .ok t') (ht : NoneNested page11.nested t) :
    (stix11 w).update o t' = .ok t' := by
  have hl1 : LocFixed stix11Cybox.locTables t' :=
    rewriteAll_fixed (stepTables_wordy (w := w) .stix11) (by simp) (StepTables.stix11 (w := w)) (fixed_first stable_cybox201 apart_11) h
  have hl2 : LocFixed (stix11Cls w).locTables t' :=
    rewriteAll_fixed (stepTables_wordy (w := w) .stix11) (by simp) (StepTables.stix11 (w := w)) (fixed_second (stable_none _ _)) h
  simp only [stix11, stix11Update] at h ⊢
  rw [stixVersions_eq] at h ⊢
  have r1 := rel_stamped_trans (rel_stamped_trans (stamped_schemaloc stix11Cybox t) (stamped_schemaloc (stix11Cls w) _))
    (stamped_versions (m := (stix11Cls w).nsmap) (alts := (stix11Cls w).xpathVersioned) (stamped_stix "2.1.1" "1.1.1") _)
  have n1 := nested_rel (fun _ _ h => ⟨h.1.1.1, h.1.1.2.1⟩) r1 ht
  have hv1 := ver_done (m := (stix11Cls w).nsmap) (alts := xpathStixVersioned) (by decide) (setStixVersion_keeps "2.1.1" "1.1.1") (setStix_twice _ _)
    ((stix11Cls w).updateSchemalocs (stix11Cybox.updateSchemalocs t))
  rw [show (stix11Cls w).xpathVersioned = xpathStixVersioned from rfl] at h n1 ⊢
  generalize ((stix11Cls w).updateSchemalocs (stix11Cybox.updateSchemalocs t)).edit
    (versionEdit (stix11Cls w).nsmap xpathStixVersioned (setStixVersion "2.1.1" "1.1.1")) = d at h n1 hv1
  rw [fields11_nested n1] at h
  simp only at h
  split at h
  · cases h
  · next e he =>
    have c2 := carry_vocabs (by
      show ∀ v ∈ (stix11Cls w0).vocabs, ∀ p ∈ v.terms, p ∈ correctedTerms
      decide) he
    have hp : Part e t' := mem_optionalsIf h
    have n2 := nested_part hp (nested_rel (P := SameData vocabNames) (fun _ _ h => ⟨h.1, h.2.1⟩) (carry_same c2) n1)
    have hv2 := ver_part (by decide) hp
      (ver_rel (L := vocabNames) (by decide) (fun _ _ hs he => setStix_fixed (by decide) hs he) (carry_same c2) hv1)
    have hd := vocabsIf_done (stepRows_matches (w := w) .stix11) (stepRows_stable (w := w) .stix11) (by simp [stix11, stix11Cls]) he
    rw [loc_idle hl1, loc_idle hl2, ver_idle hv2, fields11_nested n2]
    have hi := vocabsIf_idle (stepRows_matches (w := w) .stix11) (fun hb => vocabs_part hp (hd hb))
    rw [show (stix11 w).cls.vocabs = (stix11Cls w).vocabs from rfl] at hi
    simp only [hi]
    cases hb : o.removeOptionals with
    | false => simp
    | true =>
      rw [hb] at h
      exact generic_again h

/-! ### Renaming elements -/

mutual
theorem walk_map_head {F : Ctx → Elem} {H : Option QName → Option QName → Prop} {pos : Pos} {env env' : NsMap} {anc anc' : List QName}
    (h0 : H anc.head? anc'.head?) (hl : anc'.length = anc.length) : ∀ t : Node,
    (∀ b ∈ t.walk pos env anc, H (some b.e.tag) (some (F b).tag)) → ∀ c' ∈ (t.mapCtx F pos env anc).walk pos env' anc',
      ∃ c ∈ t.walk pos env anc, c'.e = F c ∧ H c.anc.head? c'.anc.head? ∧ c'.anc.length = c.anc.length
  | .other _ _, _, c', h => by simp [Node.mapCtx, Node.walk] at h
  | .elem e ks, hF, c', h => by
    simp only [Node.mapCtx, Node.walk, List.mem_cons] at h
    rcases h with rfl | h
    · exact ⟨⟨pos, e.decls ++ env, anc, e, ks⟩, by simp [Node.walk], rfl, h0, hl⟩
    · obtain ⟨c, hc, g⟩ := walks_map_head (H := H) (by
        simpa using hF ⟨pos, e.decls ++ env, anc, e, ks⟩ (by simp [Node.walk])) (by simp [hl]) ks
        (fun b hb => hF b (by simp [Node.walk, hb])) c' h
      exact ⟨c, by simp [Node.walk, hc], g⟩
theorem walks_map_head {F : Ctx → Elem} {H : Option QName → Option QName → Prop} {pos : Pos} {i : Nat} {env env' : NsMap} {anc anc' : List QName}
    (h0 : H anc.head? anc'.head?) (hl : anc'.length = anc.length) : ∀ ks : List Node,
    (∀ b ∈ Node.walks pos i env anc ks, H (some b.e.tag) (some (F b).tag)) →
      ∀ c' ∈ Node.walks pos i env' anc' (Node.mapCtxs F pos i env anc ks),
      ∃ c ∈ Node.walks pos i env anc ks, c'.e = F c ∧ H c.anc.head? c'.anc.head? ∧ c'.anc.length = c.anc.length
  | [], _, c', h => by simp [Node.mapCtxs, Node.walks] at h
  | k :: ks, hF, c', h => by
    simp only [Node.mapCtxs, Node.walks, List.mem_append] at h
    rcases h with h | h
    · obtain ⟨c, hc, g⟩ := walk_map_head (H := H) h0 hl k (fun b hb => hF b (by simp [Node.walks, hb])) c' h
      exact ⟨c, by simp [Node.walks, hc], g⟩
    · obtain ⟨c, hc, g⟩ := walks_map_head (H := H) h0 hl ks (fun b hb => hF b (by simp [Node.walks, hb])) c' h
      exact ⟨c, by simp [Node.walks, hc], g⟩
end

/-- Nothing below the root has one of the names, and nothing stands in another element as listed. -/
def ClearOf (names : List QName) (L : List (QName × QName)) (t : Node) : Prop := NoneNamed names t ∧ NoneNested L t

theorem clear_edit {names : List QName} {L : List (QName × QName)} {F : Ctx → Elem} {t : Node}
    (hF : ∀ c ∈ t.elems, (F c).tag = c.e.tag ∨ (F c).tag ∉ names ∧ ∀ q ∈ L, (F c).tag ≠ q.1 ∧ (F c).tag ≠ q.2) (h : ClearOf names L t) :
    ClearOf names L (t.edit F) := by
  constructor
  · intro c' hc' ha
    obtain ⟨c, hc, _, he, hl, _⟩ := mem_edit hc'
    rw [he]
    rcases hF c hc with e | e
    · rw [e]
      refine h.1 c hc (fun hn => ha ?_)
      rw [hn] at hl
      exact List.length_eq_zero_iff.1 hl
    · exact e.1
  · rintro c' hc' q hq ⟨h1, h2⟩
    obtain ⟨c, hc, he, hh, _⟩ := walk_map_head (F := F) (H := fun x y => y = x ∨ ∀ q ∈ L, y ≠ some q.1) (Or.inl rfl) rfl t
      (fun b hb => (hF b hb).imp (fun e => by rw [e]) (fun e q hq hs => (e.2 q hq).1 (Option.some.inj hs))) c' hc'
    rcases hh with hh | hh
    · rcases hF c hc with e | e
      · exact h.2 c hc q hq ⟨by rw [← e, ← he]; exact h1, by rw [← hh]; exact h2⟩
      · exact (e.2 q hq).2 (by rw [← he]; exact h1)
    · exact hh q hq h2

theorem clear_rename {names : List QName} {L : List (QName × QName)} {a b : QName} (hb : b ≠ a ∧ b ∉ names ∧ ∀ q ∈ L, b ≠ q.1 ∧ b ≠ q.2)
    {t : Node} (h : ClearOf names L t) : ClearOf (a :: names) L (t.edit (renBelow (ren1 a b))) := by
  have h1 : ClearOf names L (t.edit (renBelow (ren1 a b))) := by
    refine clear_edit (fun c _ => ?_) h
    unfold renBelow ren1
    split
    · exact Or.inl rfl
    · simp only
      split
      · exact Or.inr hb.2
      · exact Or.inl rfl
  refine ⟨fun c' hc' ha hm => ?_, h1.2⟩
  rcases List.mem_cons.1 hm with hm | hm
  · obtain ⟨c, hc, _, he, hl, _⟩ := mem_edit hc'
    rw [he] at hm
    unfold renBelow ren1 at hm
    split at hm
    · next hn =>
      rw [List.isEmpty_iff.1 hn] at hl
      exact ha (List.length_eq_zero_iff.1 hl)
    · simp only at hm
      split at hm
      · exact hb.1 hm
      · next hne => exact hne hm
  · exact h1.1 c' hc' ha hm

theorem clear_rel {names : List QName} {L : List (QName × QName)} {P : Elem → Elem → Prop} (hP : ∀ e e', P e e' → e'.tag = e.tag ∧ e'.decls = e.decls)
    {t t' : Node} (hr : Node.Rel P t t') (h : ClearOf names L t) : ClearOf names L t' := by
  refine ⟨fun c' hc' ha => ?_, nested_rel hP hr h.2⟩
  obtain ⟨c, hc, _, hn, he, _⟩ := rel_walk_env hP hr c' hc'
  rw [(hP _ _ he).1]
  exact h.1 c hc (by rw [← hn]; exact ha)

theorem clear_part {names : List QName} {L : List (QName × QName)} {t t' : Node} (hs : Part t t') (h : ClearOf names L t) : ClearOf names L t' := by
  refine ⟨fun c' hc' ha => ?_, nested_part hs h.2⟩
  obtain ⟨c, hc, he, _, hn⟩ := hs c' hc'
  rw [he]
  exact h.1 c hc (by rw [← hn]; exact ha)

/-- What the CybOX step builds anew rather than renames. -/
def rebuilt201 : List QName := [objName "HTTPSession" "DNT", objName "HTTPSession" "Vary", objName "HTTPSession" "Refresh"]

def mailslot201 : List (QName × QName) := [(objName "WinMailslot" "Handle", objName "WinHandle" "Handle")]

def renamed201 : List (QName × QName) :=
  [(objName "HTTPSession" "X_Requested_For", objName "HTTPSession" "X_Forwarded_For"),
   (objName "Packet" "Authenication_Data", objName "Packet" "Authentication_Data"),
   (objName "Packet" "Excapsulating_Security_Payload", objName "Packet" "Encapsulating_Security_Payload"),
   (objName "Packet" "Protol_Addr_Size", objName "Packet" "Proto_Addr_Size")]

theorem clear_silent {names : List QName} {L : List (QName × QName)} {f : Trans} (hf : ∀ a ∈ f.xpath, a.abs = false ∧
    ((a.parent = none ∧ a.tag.resolve f.nsmap ∈ names) ∨
      ∃ x ∈ L, a.tag.resolve f.nsmap = x.2 ∧ a.parent.map (XName.resolve f.nsmap) = some x.1)) {t : Node} (h : ClearOf names L t) :
    t.xpath f.nsmap f.xpath = [] := by
  unfold Node.xpath
  rw [List.filter_eq_nil_iff]
  intro c hc hs
  obtain ⟨a, ha, hs⟩ := List.any_eq_true.1 hs
  unfold XAlt.selects at hs
  simp only [Bool.and_eq_true, decide_eq_true_eq] at hs
  obtain ⟨⟨h1, h2⟩, _⟩ := hs
  obtain ⟨h0, ⟨hp, hm⟩ | ⟨x, hx, g1, g2⟩⟩ := hf a ha
  · rw [hp, h0] at h2
    simp only [Bool.false_or, decide_eq_true_eq] at h2
    refine h.1 c hc (fun hn => ?_) (by rw [h1]; exact hm)
    rw [hn] at h2
    simp at h2
  · cases hpar : a.parent with
    | none => rw [hpar] at g2; cases g2
    | some y =>
      rw [hpar] at g2 h2
      simp only [Option.map_some, Option.some.injEq] at g2
      simp only [Bool.and_eq_true, decide_eq_true_eq] at h2
      exact h.2 c hc x hx ⟨by rw [h1]; exact g1, by rw [h2.1, g2]⟩

theorem fields201_idle {t : Node} (h : ClearOf (renamed201.map (·.1) ++ rebuilt201) mailslot201 t) :
    translateFields cybox201Translatable t = .ok t := by
  have h0 : ∀ f ∈ cybox201Translatable, ∀ a ∈ f.xpath, a.abs = false ∧
    ((a.parent = none ∧ a.tag.resolve f.nsmap ∈ renamed201.map (·.1) ++ rebuilt201) ∨
      ∃ x ∈ mailslot201, a.tag.resolve f.nsmap = x.2 ∧ a.parent.map (XName.resolve f.nsmap) = some x.1) := by decide +kernel
  exact fields_nothing (fun f hf => clear_silent (h0 f hf) h)

/-- The renames of the CybOX step. -/
theorem fields201_done {t t' : Node} (h : translateFields cybox201Translatable t = .ok t') (ht : ClearOf rebuilt201 mailslot201 t) :
    (∃ f, (∀ q, f q = q ∨ f q ∈ renamed201.map (·.2)) ∧ (∀ q, (f q).ns = q.ns) ∧ t' = t.edit (renBelow f)) ∧
      ClearOf (renamed201.map (·.1) ++ rebuilt201) mailslot201 t' := by
  have h0 : ∀ f ∈ [transDNT, transVary, transRefresh, transMailslot], ∀ a ∈ f.xpath, a.abs = false ∧
    ((a.parent = none ∧ a.tag.resolve f.nsmap ∈ rebuilt201) ∨
      ∃ x ∈ mailslot201, a.tag.resolve f.nsmap = x.2 ∧ a.parent.map (XName.resolve f.nsmap) = some x.1) := by decide +kernel
  have a0 : ∀ p ∈ renamed201, p.2 ∉ renamed201.map (·.1) ++ rebuilt201 ∧ ∀ q ∈ mailslot201, p.2 ≠ q.1 ∧ p.2 ≠ q.2 := by decide +kernel
  have a1 : (transXRequestedFor = ⟨[rel "HTTPSessionObj" "X_Requested_For"], Tables.cybox201_nsmap, .renamed (objName "HTTPSession" "X_Forwarded_For")⟩ ∧
    XName.resolve Tables.cybox201_nsmap ⟨"HTTPSessionObj", "X_Requested_For"⟩ = objName "HTTPSession" "X_Requested_For") := ⟨rfl, by decide +kernel⟩
  have a2 : (transAuthData = ⟨[rel "PacketObj" "Authenication_Data"], Tables.cybox201_nsmap, .renamed (objName "Packet" "Authentication_Data")⟩ ∧
    XName.resolve Tables.cybox201_nsmap ⟨"PacketObj", "Authenication_Data"⟩ = objName "Packet" "Authenication_Data") := ⟨rfl, by decide +kernel⟩
  have a3 : (transEncapsulating = ⟨[rel "PacketObj" "Excapsulating_Security_Payload"], Tables.cybox201_nsmap,
      .renamed (objName "Packet" "Encapsulating_Security_Payload")⟩ ∧
    XName.resolve Tables.cybox201_nsmap ⟨"PacketObj", "Excapsulating_Security_Payload"⟩ = objName "Packet" "Excapsulating_Security_Payload") :=
    ⟨rfl, by decide +kernel⟩
  have a4 : (transProtoAddrSize = ⟨[rel "PacketObj" "Protol_Addr_Size"], Tables.cybox201_nsmap, .renamed (objName "Packet" "Proto_Addr_Size")⟩ ∧
    XName.resolve Tables.cybox201_nsmap ⟨"PacketObj", "Protol_Addr_Size"⟩ = objName "Packet" "Protol_Addr_Size") := ⟨rfl, by decide +kernel⟩
  have c1 := clear_rename (a := objName "HTTPSession" "X_Requested_For") (b := objName "HTTPSession" "X_Forwarded_For") (by decide +kernel) ht
  have c2 := clear_rename (a := objName "Packet" "Authenication_Data") (b := objName "Packet" "Authentication_Data") (by decide +kernel) c1
  have c3 := clear_rename (a := objName "Packet" "Excapsulating_Security_Payload") (b := objName "Packet" "Encapsulating_Security_Payload")
    (by decide +kernel) c2
  have c4 := clear_rename (a := objName "Packet" "Protol_Addr_Size") (b := objName "Packet" "Proto_Addr_Size") (by decide +kernel) c3
  have hm : ∀ {d : Node} {names : List QName}, (∀ q ∈ rebuilt201, q ∈ names) → ClearOf names mailslot201 d → d.xpath transMailslot.nsmap transMailslot.xpath = [] := by
    intro d names hn hd
    exact clear_silent (h0 transMailslot (by simp)) ⟨fun c hc ha hq => hd.1 c hc ha (hn _ hq), hd.2⟩
  simp only [cybox201Translatable, translateFields, foldE,
    translate_nothing (clear_silent (h0 transDNT (by simp)) ht), translate_nothing (clear_silent (h0 transVary (by simp)) ht),
    translate_nothing (clear_silent (h0 transRefresh (by simp)) ht), a1.1, a2.1, a3.1, a4.1, translate_renamed, a1.2, a2.2, a3.2, a4.2] at h
  rw [translate_nothing (hm (fun q hq => by simp [hq]) c4)] at h
  simp only [Except.ok.injEq] at h
  constructor
  · refine ⟨_, ?_, ?_, by rw [← h, edit_ren, edit_ren, edit_ren]⟩
    case refine_2 =>
      have hr : ∀ {f : QName → QName} {a b : QName}, a.ns = b.ns → (∀ q, (f q).ns = q.ns) → ∀ q, ((ren1 a b ∘ f) q).ns = q.ns := by
        intro f a b hab hf q
        simp only [Function.comp, ren1]
        split
        · next he => rw [← hf q, he, hab]
        · exact hf q
      refine hr rfl (hr rfl (hr rfl ?_))
      intro q
      unfold ren1
      split
      · next he => rw [he]; rfl
      · rfl
    have hr : ∀ {f : QName → QName} {a b : QName}, b ∈ renamed201.map (·.2) → (∀ q, f q = q ∨ f q ∈ renamed201.map (·.2)) →
        ∀ q, (ren1 a b ∘ f) q = q ∨ (ren1 a b ∘ f) q ∈ renamed201.map (·.2) := by
      intro f a b hb hf q
      simp only [Function.comp, ren1]
      split
      · exact Or.inr hb
      · exact hf q
    refine hr (by simp [renamed201]) (hr (by simp [renamed201]) (hr (by simp [renamed201]) ?_))
    intro q
    unfold ren1
    split
    · exact Or.inr (by simp [renamed201])
    · exact Or.inl rfl
  · rw [← h]
    refine ⟨fun c hc ha hq => c4.1 c hc ha ?_, c4.2⟩
    simp only [renamed201, List.map_cons, List.map_nil, List.cons_append, List.nil_append, List.mem_cons] at hq ⊢
    rcases hq with h | h | h | h | h
    · exact Or.inr (Or.inr (Or.inr (Or.inl h)))
    · exact Or.inr (Or.inr (Or.inl h))
    · exact Or.inr (Or.inl h)
    · exact Or.inl h
    · exact Or.inr (Or.inr (Or.inr (Or.inr h)))

theorem ver_rename {m : List (String × String)} {sel : List XAlt} {g : Elem → Elem} (hp : PlainAlts [] sel) (hpar : ∀ a ∈ sel, a.parent = none)
    {f : QName → QName} {T : List QName} (hf : ∀ q, f q = q ∨ f q ∈ T) (hT : ∀ a ∈ sel, a.tag.resolve m ∉ T) {t : Node}
    (h : VerFixed m sel g t) : VerFixed m sel g (t.edit (renBelow f)) := by
  intro c' hc' hs
  obtain ⟨c, hc, _, he, hl, _⟩ := mem_edit hc'
  obtain ⟨a, ha, hsel⟩ := List.any_eq_true.1 hs
  have htag : c'.e.tag = a.tag.resolve m := by
    unfold XAlt.selects at hsel
    simp only [Bool.and_eq_true, decide_eq_true_eq] at hsel
    exact hsel.1.1
  have hce : c'.e = c.e := by
    rw [he] at htag ⊢
    unfold renBelow at htag ⊢
    split
    · rfl
    · next hn =>
      rw [if_neg hn] at htag
      rcases hf c.e.tag with e | e
      · rw [e]
      · exact absurd (by rw [← htag]; exact e) (hT a ha)
  rw [hce]
  refine h c hc (List.any_eq_true.2 ⟨a, ha, ?_⟩)
  have hpa := hp a ha
  unfold XAlt.selects at hsel ⊢
  rw [hpar a ha] at hsel ⊢
  rw [← hce, ← hl]
  cases hpr : a.pred with
  | none => rw [hpr] at hsel; simpa [XPred.holds] using hsel
  | hasAttr s => rw [hpr] at hsel; simpa [XPred.holds, hce] using hsel
  | hasChild _ => rw [hpr] at hpa; exact absurd hpa (by simp)

theorem ns_rename {n : List (String × String)} {sel : List XAlt} {f : QName → QName} (hf : ∀ q, f q = q ∨ f q ∈ renamed201.map (·.2)) {t : Node}
    (h : NsDone (cybox201Cls n sel) t) : NsDone (cybox201Cls n sel) (t.edit (renBelow f)) := by
  have h0 : ∀ q ∈ renamed201.map (·.2), (cybox201Cls [] []).nsUpdated q = false := by decide +kernel
  intro c' hc'
  obtain ⟨c, hc, _, he, _⟩ := mem_edit hc'
  rw [he]
  unfold renBelow
  split
  · exact h c hc
  · rcases hf c.e.tag with e | e
    · rw [e]; exact h c hc
    · exact h0 _ e

/-- Names the CybOX step never gives to an element. -/
def Fresh201 (q : QName) : Prop := q ∉ renamed201.map (·.2) ∧ q.ns ≠ some "http://cybox.mitre.org/objects#WinDriverObject-3"

instance (q : QName) : Decidable (Fresh201 q) := by unfold Fresh201; infer_instance

theorem clear_ns {n : List (String × String)} {sel : List XAlt} {names : List QName} {L : List (QName × QName)}
    (hN : ∀ q ∈ names, Fresh201 q) (hL : ∀ q ∈ L, Fresh201 q.1 ∧ Fresh201 q.2) {t : Node} (h : ClearOf names L t) :
    ClearOf names L ((cybox201Cls n sel).updateNamespaces [] t) := by
  rw [updateNamespaces_eq]
  refine clear_edit (fun c _ => ?_) h
  unfold nsEdit
  split
  · next hu =>
    right
    have hns : ((cybox201Cls n sel).updateNsmapElem [] c.e c.kids).tag.ns = some "http://cybox.mitre.org/objects#WinDriverObject-3" := by
      simp only [Cls.updateNsmapElem]
      unfold Cls.nsUpdated at hu
      unfold Cls.remappedTag
      cases hq : c.e.tag.ns with
      | none => rw [hq] at hu; cases hu
      | some x =>
        rw [hq] at hu
        simp only [cybox201Cls, Tables.cybox201_updateNsMap, assoc] at hu ⊢
        split at hu
        · next hx => subst hx; simp
        · cases hu
    exact ⟨fun hm => (hN _ hm).2 hns, fun q hq => ⟨fun e => (hL q hq).1.2 (by rw [← e]; exact hns), fun e => (hL q hq).2.2 (by rw [← e]; exact hns)⟩⟩
  · exact Or.inl rfl

theorem clear_ren {f : QName → QName} (hf : ∀ q, f q = q ∨ f q ∈ renamed201.map (·.2)) {names : List QName} {L : List (QName × QName)}
    (hN : ∀ q ∈ names, Fresh201 q) (hL : ∀ q ∈ L, Fresh201 q.1 ∧ Fresh201 q.2) {t : Node} (h : ClearOf names L t) :
    ClearOf names L (t.edit (renBelow f)) := by
  refine clear_edit (fun c _ => ?_) h
  unfold renBelow
  split
  · exact Or.inl rfl
  · rcases hf c.e.tag with e | e
    · exact Or.inl (by simp only [e])
    · exact Or.inr ⟨fun hm => (hN _ hm).1 e, fun q hq => ⟨fun e' => (hL q hq).1.1 (by rw [← e']; exact e), fun e' => (hL q hq).2.1 (by rw [← e']; exact e)⟩⟩

/-- What the embedded or stand-alone CybOX 2.0.1 updater leaves, apart from schema locations. -/
theorem left201 {n : List (String × String)} {sel : List XAlt} (hsel : PlainAlts [] sel ∧ PlainAlts vocabNames sel)
    (hpar : ∀ a ∈ sel, a.parent = none) (hT : ∀ a ∈ sel, a.tag.resolve n ∉ renamed201.map (·.2))
    {o : Options} {t t' : Node} (h : cybox201Update (cybox201Cls n sel) o t = .ok t') (ht : ClearOf rebuilt201 mailslot201 t) :
    VerFixed n sel setVersion21 t' ∧ NsDone (cybox201Cls n sel) t' ∧ ClearOf (renamed201.map (·.1) ++ rebuilt201) mailslot201 t' ∧
      (∀ rows, StepRows w0 cybox201 rows → o.updateVocabularies = true → VocabsDone rows t' ∧ WellTyped t') ∧
      (o.removeOptionals = true → ∀ c ∈ t'.elems, ¬ EmptyOptional (Named optional21) t' c) ∧
      ∀ names L, (∀ q ∈ names, Fresh201 q) → (∀ q ∈ L, Fresh201 q.1 ∧ Fresh201 q.2) → ClearOf names L t → ClearOf names L t' := by
  simp only [cybox201Update] at h
  rw [cybox201Versions_eq] at h
  have n1 := ns_done (u := cybox201Cls n sel) (by show ∀ p ∈ (cybox201Cls [] []).updateNsMap, assoc (cybox201Cls [] []).updateNsMap p.2 = none; decide) t
  have k1 : ∀ names L, (∀ q ∈ names, Fresh201 q) → (∀ q ∈ L, Fresh201 q.1 ∧ Fresh201 q.2) → ClearOf names L t →
      ClearOf names L ((cybox201Cls n sel).updateNamespaces [] t) := fun _ _ h1 h2 h3 => clear_ns h1 h2 h3
  generalize (cybox201Cls n sel).updateNamespaces [] t = t0 at h n1 k1
  have r1 := rel_stamped_trans (stamped_schemaloc (cybox201Cls n sel) t0)
    (stamped_versions (m := (cybox201Cls n sel).nsmap) (alts := (cybox201Cls n sel).xpathVersioned) stamped_21 _)
  have v1 : VerFixed n sel setVersion21 _ := ver_done (m := n) hsel.1 setVersion21_keeps set21_twice ((cybox201Cls n sel).updateSchemalocs t0)
  have n2 := ns_rel (u := cybox201Cls n sel) (fun _ _ h => ⟨h.1.1.1, h.1.1.2.1⟩) r1 n1
  have k2 := fun names L h1 h2 h3 => clear_rel (fun _ _ h => ⟨h.1.1.1, h.1.1.2.1⟩) r1 (k1 names L h1 h2 h3)
  rw [show (cybox201Cls n sel).nsmap = n from rfl, show (cybox201Cls n sel).xpathVersioned = sel from rfl] at h n2 k2
  generalize ((cybox201Cls n sel).updateSchemalocs t0).edit (versionEdit n sel setVersion21) = d at h v1 n2 k2
  split at h
  · cases h
  · next d2 h2 =>
    obtain ⟨⟨f, hf, _, rfl⟩, c3⟩ := fields201_done h2 (k2 _ _ (by decide +kernel) (by decide +kernel) ht)
    have v3 := ver_rename hsel.1 hpar hf hT v1
    have n3 := ns_rename hf n2
    have k3 := fun names L h1 h2 h3 => clear_ren hf h1 h2 (k2 names L h1 h2 h3)
    split at h
    · cases h
    · next d4 h4 =>
      have c4 := carry_same (carry_vocabs (by
        show ∀ v ∈ (cybox201Cls [] []).vocabs, ∀ p ∈ v.terms, p ∈ correctedTerms
        decide) h4)
      have hp : Part d4 t' := mem_optionalsIf h
      have hP : ∀ e e', SameData vocabNames e e' → e'.tag = e.tag ∧ e'.decls = e.decls := fun _ _ h => ⟨h.1, h.2.1⟩
      refine ⟨ver_part hsel.1 hp (ver_rel hsel.2 (fun _ _ hs he => set21_fixed (by decide) hs he) c4 v3), ?_,
        clear_part hp (clear_rel hP c4 c3), ?_, ?_, fun names L h1 h2 h3 => clear_part hp (clear_rel hP c4 (k3 names L h1 h2 h3))⟩
      · intro c' hc'
        obtain ⟨c, hc, he, _⟩ := hp c' hc'
        rw [he]
        exact ns_rel hP c4 n3 c hc
      · intro rows hrows hb
        exact vocabs_part hp (vocabsIf_done (stepRows_matches hrows) (stepRows_stable hrows) (by simp [cybox201, cybox201Cls]) h4 hb)
      · intro hb
        rw [hb, if_pos rfl, show (cybox201Cls n sel).optionals = cybox201Optionals from rfl, optionals_pass] at h
        cases h
        exact named_clean (gone_named d4)

theorem settled201 {n : List (String × String)} {sel : List XAlt} {o : Options} {t : Node} (h1 : LocFixed (cybox201Cls n sel).locTables t)
    (h2 : VerFixed n sel setVersion21 t) (h3 : NsDone (cybox201Cls n sel) t) (h4 : ClearOf (renamed201.map (·.1) ++ rebuilt201) mailslot201 t)
    {rows : List VocabRow} (hrows : StepRows w0 cybox201 rows) (h5 : o.updateVocabularies = true → VocabsDone rows t ∧ WellTyped t)
    (h6 : o.removeOptionals = true → ∀ c ∈ t.elems, ¬ EmptyOptional (Named optional21) t c) :
    cybox201Update (cybox201Cls n sel) o t = .ok t := by
  simp only [cybox201Update]
  rw [ns_idle h3, cybox201Versions_eq, loc_idle h1,
    ver_idle (m := (cybox201Cls n sel).nsmap) (alts := (cybox201Cls n sel).xpathVersioned) h2,
    show (cybox201Cls n sel).translatable = cybox201Translatable from rfl, fields201_idle h4]
  have hi := vocabsIf_idle (stepRows_matches hrows) h5
  rw [show cybox201.cls.vocabs = (cybox201Cls n sel).vocabs from rfl] at hi
  simp only [hi]
  cases hb : o.removeOptionals with
  | false => rfl
  | true =>
    simp only [if_true, show (cybox201Cls n sel).optionals = cybox201Optionals from rfl, optionals_pass, Except.ok.injEq]
    refine without_nothing (fun c hc _ => ?_)
    rw [← Bool.not_eq_true, optSel_spec (t := t)]
    exact h6 hb c hc

theorem again_cybox201 {o : Options} {t t' : Node} (h : cybox201.update o t = .ok t') (ht : ClearOf rebuilt201 mailslot201 t) :
    cybox201.update o t' = .ok t' := by
  have hloc : LocFixed (cybox201Cls Tables.cybox201_nsmap xpathObservables).locTables t' :=
    rewriteAll_fixed (stepTables_wordy (w := w0) .cybox201) (by simp) (StepTables.cybox201 (w := w0)) (fixed_one stable_cybox201) h
  obtain ⟨h1, h2, h3, h4, h5, _⟩ := left201 (n := Tables.cybox201_nsmap) (sel := xpathObservables) (by decide) (by decide) (by decide +kernel) h ht
  exact settled201 hloc h1 h2 h3 .cybox201 (h4 _ .cybox201) h5

/-! ### STIX 1.0.1 -/

/-- The same name, and empty before if empty after. -/
def Fuller (e e' : Elem) : Prop := (e'.tag = e.tag ∧ e'.decls = e.decls) ∧ (Bare e' → Bare e)

theorem fuller_stamped {t t' : Node} (h : Node.Rel Stamped t t') : Node.Rel Fuller t t' :=
  rel_mono (fun _ _ he => ⟨⟨he.1.1.1, he.1.1.2.1⟩, stamped_bare he⟩) h

theorem fuller_vocabs {b : Bool} {vs : List Vocab} {rows : List VocabRow} (hm : MatchesAll vs rows) (hs : Stable rows) {t t' : Node}
    (h : (if b then updateVocabs vs t else .ok t) = .ok t') : Node.Rel Fuller t t' := by
  cases b with
  | false => cases h; exact rel_refl (fun e => ⟨⟨rfl, rfl⟩, id⟩) t
  | true =>
    obtain ⟨F, hF, rfl, hspec⟩ := updateVocabs_spec hm hs h
    refine rel_mapCtx_mem [] [] [] t (fun c hc => ⟨hF c, fun hb => ?_⟩)
    rcases Classical.em (∃ row ∈ rows, ∃ p, Outdated row p c) with ⟨row, hr, p, ho⟩ | hno
    · have hw := (hspec c hc).1 row hr p ho
      obtain ⟨_, ty, _, s, hs1, _⟩ := ho
      unfold Rewritten at hw
      have := hw.2.2.2.2.1
      rw [hb.1] at this
      have ha : c.e.attrs = [] := List.map_eq_nil_iff.1 this.symm
      unfold Elem.get? at hs1
      rw [ha] at hs1
      cases hs1
    · rw [(hspec c hc).2 (fun row hr p ho => hno ⟨row, hr, p, ho⟩)] at hb
      exact hb

theorem clean_rel {names : List QName} {t t' : Node} (hr : Node.Rel Fuller t t') (h : ∀ c ∈ t.elems, ¬ EmptyOptional (Named names) t c) :
    ∀ c ∈ t'.elems, ¬ EmptyOptional (Named names) t' c := by
  rintro c' hc' ⟨h1, h2, h3⟩
  obtain ⟨c, hc, _, ha, he, hk⟩ := rel_walk_env (P := Fuller) (fun _ _ h => h.1) hr c' hc'
  refine h c hc ⟨by rw [← ha]; exact h1, ?_, ?_⟩
  · unfold Named at h2 ⊢
    rw [← he.1.1]; exact h2
  · exact rel_all_back (P := Fuller) (A := Bare) (fun _ _ h => h.2) (a := c.node) (b := c'.node) (by simp only [Ctx.node, Node.Rel]; exact ⟨he, hk⟩) h3

theorem clean_without {names names' : List QName} {t : Node} (h : ∀ c ∈ t.elems, ¬ EmptyOptional (Named names) t c) :
    ∀ c ∈ (t.without (optSel names')).elems, ¬ EmptyOptional (Named names) (t.without (optSel names')) c := by
  rintro c hc ⟨h1, h2, h3⟩
  obtain ⟨b, hb, e1, e2, e3, e4, _⟩ := mem_without hc
  unfold Ctx.node at h3
  rw [e1, e4] at h3
  exact h b hb ⟨e3 ▸ h1, by unfold Named; rw [← e1]; exact h2,
    bare_back (t := t) (S := optSel names') (L := Named names') (fun c _ => optSel_spec) hb h3⟩

theorem fields101_idle {w : World} {t : Node} (h : ClearOf page101.names page101.nested t) : translateFields (stix101Cls w).translatable t = .ok t := by
  have h0 : ∀ f ∈ [transContributors, transExploitTargets], ∀ a ∈ f.xpath, a.abs = false ∧
    ((a.parent = none ∧ a.tag.resolve f.nsmap ∈ page101.names) ∨
      ∃ x ∈ page101.nested, a.tag.resolve f.nsmap = x.2 ∧ a.parent.map (XName.resolve f.nsmap) = some x.1) := by decide +kernel
  exact fields_nothing (fun f hf => clear_silent (h0 f hf) h)

theorem apart_101 : LocTables.Apart ⟨[], Tables.cybox201_updateNsMap, Tables.cybox201_schemalocMap⟩
    ⟨Tables.stix101_disallowedNs, [], Tables.stix101_schemalocMap⟩ := ⟨rfl, by decide +kernel⟩

theorem cybox201_rows {w : World} {u : Updater} {rows : List VocabRow} (hu : StepRows w u rows) (he : u.cls.version = cybox201.cls.version)
    (hn : u.cls.nsmap = cybox201.cls.nsmap) : ∀ row ∈ rows, row.ns = "http://cybox.mitre.org/default_vocabularies-2" := by
  cases hu with
  | cybox201 => decide
  | cybox20 => exact absurd he (by decide)
  | stix10 => exact absurd he (by decide)
  | stix101 => exact absurd he (by simp only [stix101, stix101Cls]; decide)
  | stix11 => exact absurd he (by simp only [stix11, stix11Cls]; decide)
  | stix111 => exact absurd he (by decide)
  | stix12 => exact absurd he (by decide)

theorem again_stix101 {w : World} {o : Options} {t t' : Node} (h : (stix101 w).update o t = .ok t') (ht : ClearOf rebuilt201 mailslot201 t)
    (ht2 : ClearOf page101.names page101.nested t) : (stix101 w).update o t' = .ok t' := by
  have hl1 : LocFixed stix101Cybox.locTables t' :=
    rewriteAll_fixed (stepTables_wordy (w := w) .stix101) (by simp) (StepTables.stix101 (w := w)) (fixed_first stable_cybox201 apart_101) h
  have hl2 : LocFixed (stix101Cls w).locTables t' :=
    rewriteAll_fixed (stepTables_wordy (w := w) .stix101) (by simp) (StepTables.stix101 (w := w)) (fixed_second (stable_none _ _)) h
  simp only [stix101, stix101Update] at h ⊢
  split at h
  · cases h
  · next t1 h1 =>
    obtain ⟨g1, g2, g3, g4, g5, g6⟩ := left201 (n := joinNsmap Tables.stix101_nsmap Tables.cybox201_nsmap) (sel := stix101Selectors) (by decide)
      (by decide) (by decide +kernel) h1 ht
    have g7 := g6 _ _ (by decide +kernel) (by decide +kernel) ht2
    rw [updateNamespaces_none (u := stix101Cls w) rfl, stixVersions_eq, show (stix101Cls w).xpathVersioned = xpathStixVersioned from rfl] at h
    have r1 := rel_stamped_trans (stamped_schemaloc (stix101Cls w) t1)
      (stamped_versions (m := (stix101Cls w).nsmap) (alts := xpathStixVersioned) (stamped_stix "2.1" "1.1") _)
    have s1 : Node.Rel (SameData [tagSchemaLoc, attrVersion]) t1 _ := Node.Rel.comp (P := SameData [tagSchemaLoc]) (Q := SameData [attrVersion])
      (R := SameData [tagSchemaLoc, attrVersion]) (fun _ _ _ h g => (sameData_mono (by simp) h).trans (sameData_mono (by simp) g))
      (by
        rw [updateSchemalocs_eq]
        refine rel_mapCtx (fun c => ?_) [] [] [] t1
        unfold schemalocEdit Cls.updateSchemalocsElem
        split
        · split
          · exact SameData.refl _ _
          · exact SameData.set (by simp) _ _
        · exact SameData.refl _ _)
      (carry_same (carry_stix "2.1" "1.1" (stix101Cls w).nsmap xpathStixVersioned ((stix101Cls w).updateSchemalocs t1)))
    have hv := ver_done (m := (stix101Cls w).nsmap) (alts := xpathStixVersioned) (by decide) (setStixVersion_keeps "2.1" "1.1") (setStix_twice _ _)
      ((stix101Cls w).updateSchemalocs t1)
    generalize ((stix101Cls w).updateSchemalocs t1).edit (versionEdit (stix101Cls w).nsmap xpathStixVersioned (setStixVersion "2.1" "1.1")) = d
      at h r1 s1 hv
    have hP : ∀ e e', Stamped e e' → e'.tag = e.tag ∧ e'.decls = e.decls := fun _ _ h => ⟨h.1.1.1, h.1.1.2.1⟩
    have hQ : ∀ e e', SameData vocabNames e e' → e'.tag = e.tag ∧ e'.decls = e.decls := fun _ _ h => ⟨h.1, h.2.1⟩
    rw [fields101_idle (clear_rel hP r1 g7)] at h
    simp only at h
    split at h
    · cases h
    · next e he =>
      have c2 := carry_same (carry_vocabs (by
        show ∀ v ∈ (stix101Cls w0).vocabs, ∀ p ∈ v.terms, p ∈ correctedTerms
        decide) he)
      have hp : Part e t' := mem_optionalsIf h
      have hd : o.updateVocabularies = true → _ :=
        vocabsIf_done (stepRows_matches (w := w) .stix101) (stepRows_stable (w := w) .stix101) (by simp [stix101, stix101Cls]) he
      have hcy : cybox201Update stix101Cybox o t' = .ok t' := by
        refine settled201 (rows := _) hl1 ?_ ?_ (clear_part hp (clear_rel hQ c2 (clear_rel hP r1 g3))) .cybox201 (fun hb => ⟨?_, (vocabs_part hp (hd hb)).2⟩) ?_
        · exact ver_part (by decide) hp (ver_rel (by decide) (fun _ _ hs he => set21_fixed (by decide) hs he) c2
            (ver_rel (L := [tagSchemaLoc, attrVersion]) (by decide) (fun _ _ hs he => set21_fixed (by decide) hs he) s1 g1))
        · intro c' hc'
          obtain ⟨c, hc, hce, _⟩ := hp c' hc'
          rw [hce]
          exact ns_rel hQ c2 (ns_rel hP r1 g2) c hc
        · intro c' hc' row hrow p ho
          obtain ⟨c, hc, hce, hcv, hca⟩ := hp c' hc'
          obtain ⟨ho1, ty, hty, ho2⟩ := ho
          have hor : Outdated row p c := ⟨by rw [← hca]; exact ho1, ty, hty, (typed_part hce hcv).1 ho2⟩
          rw [hb] at he
          obtain ⟨c3, hc3, ho3⟩ := updateVocabs_foreign (stepRows_matches (w := w) .stix101) (stepRows_stable (w := w) .stix101) he (row := row) (by
            intro r' hr'
            rw [cybox201_rows (w := w0) .cybox201 rfl rfl row hrow]
            simp only [List.mem_cons, List.not_mem_nil, or_false] at hr'
            rcases hr' with rfl | rfl <;> decide) hc hor
          exact outdated_rel (by decide) s1 (g4 _ .cybox201 hb).1 c3 hc3 row hrow p ho3
        · intro hb
          have hc1 := clean_rel (fuller_vocabs (stepRows_matches (w := w) .stix101) (stepRows_stable (w := w) .stix101) he)
            (clean_rel (fuller_stamped r1) (g5 hb))
          rw [hb, if_pos rfl, optionals_pass11] at h
          cases h
          exact clean_without hc1
      rw [hcy]
      simp only
      have hi := vocabsIf_idle (stepRows_matches (w := w) .stix101) (fun hb => vocabs_part hp (hd hb))
      rw [show (stix101 w).cls.vocabs = (stix101Cls w).vocabs from rfl] at hi
      rw [updateNamespaces_none (u := stix101Cls w) rfl, stixVersions_eq, show (stix101Cls w).xpathVersioned = xpathStixVersioned from rfl, loc_idle hl2,
        ver_idle (ver_part (by decide) hp (ver_rel (L := vocabNames) (by decide) (fun _ _ hs he => setStix_fixed (by decide) hs he) c2 hv)),
        fields101_idle (clear_part hp (clear_rel hQ c2 (clear_rel hP r1 g7)))]
      simp only [hi]
      cases hb : o.removeOptionals with
      | false => simp
      | true =>
        rw [hb, if_pos rfl, optionals_pass11] at h
        cases h
        simp only [if_true, optionals_pass11, Except.ok.injEq]
        refine without_nothing (fun c hc _ => ?_)
        rw [← Bool.not_eq_true, optSel_spec (t := e.without (optSel optional11))]
        exact named_clean (gone_named e) c hc

/-! ### The whole step -/

theorem tried {u : Updater} {o : Options} {k k' : Nat} {t : Node} {r : Result} (h : stepUpdate u o false k t = .ok (r, k')) :
    u.update o t = .ok r.doc := by
  simp only [stepUpdate, tryUpdate] at h
  cases hc : u.check o t with
  | error x => rw [hc] at h; simp at h
  | ok _ =>
    rw [hc] at h
    simp only at h
    cases hu : u.update o t with
    | error x => rw [hu] at h; simp at h
    | ok d => rw [hu] at h; cases h; rfl

theorem retried {u : Updater} {o : Options} {force : Bool} {k : Nat} {t : Node} (hc : u.check o t = .ok ()) (h : u.update o t = .ok t) :
    stepUpdate u o force k t = .ok (⟨t, [], []⟩, k) := by
  simp only [stepUpdate, tryUpdate, hc, h]

/-- Two runs in a row, evaluated. -/
theorem twice_of_eval {u : Updater} {t : Node} {P : Result → Result → Prop} [∀ a b, Decidable (P a b)]
    (h : (match stepUpdate u o0 false 0 t with
      | .error _ => false
      | .ok r => match stepUpdate u { o0 with checkVersions := false } false 0 r.1.doc with
        | .error _ => false
        | .ok r' => decide (P r.1 r'.1)) = true) : ∃ r r', stepUpdate u o0 false 0 t = .ok r ∧
      stepUpdate u { o0 with checkVersions := false } false 0 r.1.doc = .ok r' ∧ P r.1 r'.1 := by
  cases h1 : stepUpdate u o0 false 0 t with
  | error _ => rw [h1] at h; cases h
  | ok r =>
    rw [h1] at h
    simp only at h
    cases h2 : stepUpdate u { o0 with checkVersions := false } false 0 r.1.doc with
    | error _ => rw [h2] at h; cases h
    | ok r' => rw [h2] at h; exact ⟨r, r', rfl, h2, of_decide_eq_true h⟩

/-! ## C59 -/

/-- C59: running the STIX 1.1.1 step once more on its result, without the version check, changes nothing. -/
theorem C59_stix111 (o : Options) (force force' : Bool) (k k' j : Nat) (t : Node) (r : Result)
    (h : stepUpdate stix111 o force k t = .ok (r, k')) :
    stepUpdate stix111 { o with checkVersions := false } force' j r.doc = .ok (⟨r.doc, [], []⟩, j) := by
  obtain ⟨t1, _, h1⟩ := step_update (w := w0) .stix111 h
  exact retried rfl (again_stix111 h1)

example : ∃ r, stepUpdate stix111 o0 false 0 doc111 = .ok r ∧ r.1.doc ≠ doc111 := ok_of_eval (by decide +kernel)

/-- C59: running the STIX 1.2 step once more on its result, without the version check, changes nothing. -/
theorem C59_stix12 (o : Options) (force force' : Bool) (k k' j : Nat) (t : Node) (r : Result)
    (h : stepUpdate stix12 o force k t = .ok (r, k')) :
    stepUpdate stix12 { o with checkVersions := false } force' j r.doc = .ok (⟨r.doc, [], []⟩, j) := by
  obtain ⟨t1, _, h1⟩ := step_update (w := w0) .stix12 h
  exact retried rfl (again_stix12 h1)

example : ∃ r, stepUpdate stix12 o0 false 0 (stixDoc "1.2" [el nsStix "TTPs" [] []]) = .ok r ∧
    r.1.doc ≠ stixDoc "1.2" [el nsStix "TTPs" [] []] := ok_of_eval (by decide +kernel)

/-- C59 for STIX 1.1 documents without the fields that the step puts into a new structure.
Partial: the structured field is taken for an old one again (`C59_sources_fails`, `C59_campaign_fails`). -/
theorem C59_stix11_partial (w : World) (o : Options) (force' : Bool) (k k' j : Nat) (t : Node) (r : Result)
    (ht : NoneNested page11.nested t) (h : stepUpdate (stix11 w) o false k t = .ok (r, k')) :
    stepUpdate (stix11 w) { o with checkVersions := false } force' j r.doc = .ok (⟨r.doc, [], []⟩, j) :=
  retried rfl (show (stix11 w).update o r.doc = .ok r.doc from again_stix11 (tried h) ht)

/-- A test mechanism with an empty specification, and a vocabulary term. -/
def docMechanism : Node :=
  stixDoc "1.1" [.elem ⟨⟨some nsIndicator, "Test_Mechanism"⟩, [(some "g", "http://stix.mitre.org/extensions/TestMechanism#Generic-1")],
    [xsiType "g:GenericTestMechanismType"], none, none⟩ [el "http://stix.mitre.org/extensions/TestMechanism#Generic-1" "Specification" [] []]]

example : NoneNested page11.nested docMechanism ∧ ∃ r, stepUpdate (stix11 w0) o0 false 0 docMechanism = .ok r ∧
    r.1.doc.elems.map (·.e.tag.name) = ["STIX_Package", "Test_Mechanism"] :=
  ⟨by unfold NoneNested; decide +kernel, ok_of_eval (by decide +kernel)⟩

/-- C59 for CybOX 2.0 documents without escaped commas in their values.
Partial: an unescaped comma is taken for a list separator by the second run (`C59_lists_fails`). -/
theorem C59_cybox20_partial (o : Options) (force' : Bool) (k k' j : Nat) (t : Node) (r : Result) (ht : NoEscapes t)
    (h : stepUpdate cybox20 o false k t = .ok (r, k')) :
    stepUpdate cybox20 { o with checkVersions := false } force' j r.doc = .ok (⟨r.doc, [], []⟩, j) :=
  retried rfl (show cybox20.update o r.doc = .ok r.doc from again_cybox20 (tried h) ht)

/-- Two values with and one without a separator. -/
def docSeparators : Node :=
  cyboxDoc v20 [cy "Object" [cy "Properties" [cy "V" [] (some "a,b"), cy "W" [] (some "c##")]]]

example : NoEscapes docSeparators ∧ ∃ r, stepUpdate cybox20 o0 false 0 docSeparators = .ok r ∧
    r.1.doc.elems.map (·.e.text) = [none, none, none, some "a##comma##b", some "c##"] := by
  refine ⟨fun c hc _ s hs hi => ?_, ok_of_eval (by decide +kernel)⟩
  have h0 : ∀ c ∈ docSeparators.elems, ∀ s, c.e.text = some s → '&' ∉ s.toList := by decide +kernel
  exact h0 c hc s hs (hi.subset (by decide))

/-- C59 for the STIX 1.0 step after its checks, for documents without escaped commas in CybOX values.
Partial: as for CybOX 2.0. -/
theorem C59_stix10_partial (o : Options) (k k' : Nat) (t : Node) (r : Result) (ht : NoEscapes t)
    (h : stepUpdate stix10 o false k t = .ok (r, k')) : stix10.update o r.doc = .ok r.doc := again_stix10 (tried h) ht

example : NoEscapes docEvent ∧ ∃ r, stepUpdate stix10 o0 false 0 docEvent = .ok r ∧ r.1.doc ≠ docEvent := by
  refine ⟨fun c hc _ s hs hi => ?_, ok_of_eval (by decide +kernel)⟩
  have h0 : ∀ c ∈ docEvent.elems, ∀ s, c.e.text = some s → '&' ∉ s.toList := by decide +kernel
  exact h0 c hc s hs (hi.subset (by decide))

/-- C59 for the CybOX 2.0.1 step after its checks, for documents without the fields that the step builds anew.
Partial: the second run stops at a `DNT` or `Vary` field (`C59_headers_fails`); the two other fields are left out. -/
theorem C59_cybox201_partial (o : Options) (k k' : Nat) (t : Node) (r : Result)
    (h1 : NoneNamed [objName "HTTPSession" "DNT", objName "HTTPSession" "Vary", objName "HTTPSession" "Refresh"] t)
    (h2 : NoneNested [(objName "WinMailslot" "Handle", objName "WinHandle" "Handle")] t)
    (h : stepUpdate cybox201 o false k t = .ok (r, k')) : cybox201.update o r.doc = .ok r.doc := again_cybox201 (tried h) ⟨h1, h2⟩

/-- A misspelt name, a driver in the old name space, an empty optional element. -/
def docSpelling : Node :=
  cyboxDoc v201 [.elem ⟨objName "Packet" "Authenication_Data", [], [], some "x", none⟩ [], .elem ⟨objName "WinDriver" "A", [], [], some "y", none⟩ [],
    .elem ⟨objName "URI" "Value", [], [], none, none⟩ []]

example : (NoneNamed [objName "HTTPSession" "DNT", objName "HTTPSession" "Vary", objName "HTTPSession" "Refresh"] docSpelling ∧
    NoneNested [(objName "WinMailslot" "Handle", objName "WinHandle" "Handle")] docSpelling) ∧
    ∃ r, stepUpdate cybox201 o0 false 0 docSpelling = .ok r ∧
      r.1.doc.elems.map (·.e.tag.name) = ["Observables", "Authentication_Data", "A"] :=
  ⟨⟨by unfold NoneNamed; decide +kernel, by unfold NoneNested; decide +kernel⟩, ok_of_eval (by decide +kernel)⟩

/-- C59 for the STIX 1.0.1 step after its checks, for documents without the fields that the step builds anew.
Partial: as for CybOX 2.0.1; contributors and exploit targets are left out too. -/
theorem C59_stix101_partial (w : World) (o : Options) (k k' : Nat) (t : Node) (r : Result)
    (h1 : NoneNamed [objName "HTTPSession" "DNT", objName "HTTPSession" "Vary", objName "HTTPSession" "Refresh"] t)
    (h2 : NoneNested [(objName "WinMailslot" "Handle", objName "WinHandle" "Handle")] t)
    (h3 : NoneNamed page101.names t) (h4 : NoneNested page101.nested t)
    (h : stepUpdate (stix101 w) o false k t = .ok (r, k')) : (stix101 w).update o r.doc = .ok r.doc :=
  again_stix101 (tried h) ⟨h1, h2⟩ ⟨h3, h4⟩

/-- Observables with a misspelt name, and an empty marking structure. -/
def docMisspelt : Node :=
  stixDoc "1.0.1" [el nsStix "Observables" v201 [.elem ⟨objName "Packet" "Authenication_Data", [], [], some "x", none⟩ []],
    el "http://data-marking.mitre.org/Marking-1" "Marking_Structure" [] []]

example : (NoneNamed [objName "HTTPSession" "DNT", objName "HTTPSession" "Vary", objName "HTTPSession" "Refresh"] docMisspelt ∧
    NoneNested [(objName "WinMailslot" "Handle", objName "WinHandle" "Handle")] docMisspelt ∧ NoneNamed page101.names docMisspelt ∧
    NoneNested page101.nested docMisspelt) ∧ ∃ r, stepUpdate (stix101 w0) o0 false 0 docMisspelt = .ok r ∧
      r.1.doc.elems.map (·.e.tag.name) = ["STIX_Package", "Observables", "Authentication_Data"] :=
  ⟨⟨by unfold NoneNamed; decide +kernel, by unfold NoneNested; decide +kernel, by unfold NoneNamed; decide +kernel,
    by unfold NoneNested; decide +kernel⟩, ok_of_eval (by decide +kernel)⟩

/-- C59 fails for escaped commas: the first run makes `a&comma;b` the single value `a,b`, the second makes that a list of two. -/
theorem C59_lists_fails : ∃ r r', stepUpdate cybox20 o0 false 0 (docList "a&comma;b") = .ok r ∧
    stepUpdate cybox20 { o0 with checkVersions := false } false 0 r.1.doc = .ok r' ∧
    (r.1.doc.elems.map (·.e.text) = [none, none, none, none, some "a,b"] ∧
      r'.1.doc.elems.map (·.e.text) = [none, none, none, none, some "a##comma##b"]) :=
  twice_of_eval (P := fun r r' => r.doc.elems.map (·.e.text) = [none, none, none, none, some "a,b"] ∧
      r'.doc.elems.map (·.e.text) = [none, none, none, none, some "a##comma##b"]) (by decide +kernel)

/-- A confidence with a source. -/
def docConfidence : Node :=
  stixDoc "1.1" [el nsIndicator "Confidence" [] [el "http://stix.mitre.org/common-1" "Source" [] [] (some "me")]]

/-- C59 fails for sources: the second run puts white space in place of the name. -/
theorem C59_sources_fails : ∃ r r', stepUpdate (stix11 w0) o0 false 0 docConfidence = .ok r ∧
    stepUpdate (stix11 w0) { o0 with checkVersions := false } false 0 r.1.doc = .ok r' ∧
    (some "me" ∈ r.1.doc.elems.map (·.e.text) ∧ some "me" ∉ r'.1.doc.elems.map (·.e.text)) :=
  twice_of_eval (P := fun r r' => some "me" ∈ r.doc.elems.map (·.e.text) ∧ some "me" ∉ r'.doc.elems.map (·.e.text)) (by decide +kernel)

/-- C59 fails for related campaigns: the second run wraps the campaign once more. -/
theorem C59_campaign_fails : ∃ r r', stepUpdate (stix11 w0) o0 false 0
      (stixDoc "1.1" [el nsIndicator "Related_Campaigns" [] [el nsIndicator "Related_Campaign" [] []]]) = .ok r ∧
    stepUpdate (stix11 w0) { o0 with checkVersions := false } false 0 r.1.doc = .ok r' ∧
    (r.1.doc.elems.map (·.e.tag.name) = ["STIX_Package", "Related_Campaigns", "Related_Campaign", "Campaign"] ∧
      r'.1.doc.elems.map (·.e.tag.name) = ["STIX_Package", "Related_Campaigns", "Related_Campaign", "Campaign", "Campaign"]) :=
  twice_of_eval (P := fun r r' => r.doc.elems.map (·.e.tag.name) = ["STIX_Package", "Related_Campaigns", "Related_Campaign", "Campaign"] ∧
      r'.doc.elems.map (·.e.tag.name) = ["STIX_Package", "Related_Campaigns", "Related_Campaign", "Campaign", "Campaign"]) (by decide +kernel)

/-- A header with a value. -/
def docDnt : Node := cyboxDoc v201 [el nsHTTPSession "DNT" [] [el nsURI "Value" [] [] (some "x")]]

/-- C59 fails for the `DNT` header: the second run looks for the value that the first unwrapped and raises an `IndexError`. -/
theorem C59_headers_fails : ∃ r, stepUpdate cybox201 o0 false 0 docDnt = .ok r ∧
    stepUpdate cybox201 { o0 with checkVersions := false } false 0 r.1.doc = .error .indexError := ok_of_eval (by decide +kernel)

end Ramrod

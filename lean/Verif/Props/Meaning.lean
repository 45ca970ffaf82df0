import Verif.Props.Origin
/-!
# C64: types keep their meaning
-/

namespace Ramrod

open Samples

/-! ## Statement -/

/-- The same namespace, or the one that replaced it. -/
def SuccNs (N N' : String) : Prop := N' = N ∨ (N, N') ∈ movedNs

/-- The same type name, or a later name of the same vocabulary. -/
inductive LaterName (w : World) : String → String → Prop
  | same (ty : String) : LaterName w ty ty
  | revised {a b : String} {u : Updater} {rows : List VocabRow} {row : VocabRow} :
      LaterName w a b → StepRows w u rows → row ∈ rows → b ∈ row.old → LaterName w a row.new

/-- All prefixes are declared on the root (and perhaps again elsewhere), with one meaning each, and the two prefixes that the
steps declare on new elements have the meaning they get there. -/
structure RootDeclares (t : Node) : Prop where
  root : ∀ e, t.root? = some e → ∀ p N, Declares t p N → ∃ M, (some p, M) ∈ e.decls
  same : ∀ p N M, Declares t p N → Declares t p M → M = N
  common : ∀ N, Declares t "stixCommon" N → N = "http://stix.mitre.org/common-1"
  indicator : ∀ N, Declares t "indicator" N → N = "http://stix.mitre.org/Indicator-2"

/-- No element has two `xsi:type` attributes (as in all XML). -/
def OneType (t : Node) : Prop := ∀ c ∈ t.elems, AtMostOnce xsiTypeAttr c.e.attrs

/-- The type of `c` stems from a type in `t` and means the same: the prefix is the same, the name is the same or a later one,
and when the prefix was bound in `t` it is bound to the same namespace or to the one that replaced it. -/
def MeansAsIn (w : World) (t : Node) (c : Ctx) : Prop :=
  ∀ v p ty, c.e.get? ⟨some "http://www.w3.org/2001/XMLSchema-instance", "type"⟩ = some v → IsQType v p ty →
    ∃ c0 ∈ t.elems, ∃ v0 ty0, c0.e.get? ⟨some "http://www.w3.org/2001/XMLSchema-instance", "type"⟩ = some v0 ∧ IsQType v0 p ty0 ∧
      LaterName w ty0 ty ∧ ∀ N0, NsMap.get? c0.env (some p) = some N0 → ∃ N, NsMap.get? c.env (some p) = some N ∧ SuccNs N0 N

/-! ## Elements -/

/-- What the updates keep true of every element; `S` says whether the sources are plain. -/
structure TypeSafe (S : Prop) (D : String → String → Prop) (X : String → Prop) (e : Elem) : Prop where
  decls : ∀ p M, (some p, M) ∈ e.decls → D p M
  once : AtMostOnce xsiTypeAttr e.attrs
  types : ∀ a ∈ e.attrs, a.1 = xsiTypeAttr → X a.2
  plain : S → e.tag ∈ sourceTags → ∀ s, e.text = some s → ∀ ch ∈ s.toList, ch ∉ ['<', '>', '&', '\r']

/-- What the two predicates have to satisfy. -/
structure MeaningKeeps (w : World) (D : String → String → Prop) (X : String → Prop) : Prop where
  moved : ∀ p N N', D p N → (N, N') ∈ movedNs → D p N'
  common : D "stixCommon" nsCommon
  indicator : D "indicator" nsIndicator
  later : ∀ u rows row p ty, StepRows w u rows → row ∈ rows → ty ∈ row.old → IsQType (p ++ ":" ++ ty) p ty →
    X (p ++ ":" ++ ty) → X (p ++ ":" ++ row.new)

section
variable {S : Prop} {w : World} {D : String → String → Prop} {X : String → Prop}

theorem typeSafe_of {e e' : Elem} (h : TypeSafe S D X e)
    (hd : ∀ x ∈ e'.decls, x ∈ e.decls) (ha : ∀ a ∈ e'.attrs, a.1 = xsiTypeAttr → a ∈ e.attrs)
    (ho : AtMostOnce xsiTypeAttr e'.attrs)
    (hs : S → e'.tag ∈ sourceTags → ∀ s, e'.text = some s → ∀ ch ∈ s.toList, ch ∉ ['<', '>', '&', '\r']) : TypeSafe S D X e' :=
  ⟨fun p M hm => h.decls p M (hd _ hm), ho, fun a hm hk => h.types a (ha a hm hk) hk, hs⟩

theorem typeSafe_new {tag : QName} {decls : NsMap} {tx tl : Option String} (hd : ∀ p M, (some p, M) ∈ decls → D p M)
    (hs : S → tag ∈ sourceTags → ∀ s, tx = some s → ∀ ch ∈ s.toList, ch ∉ ['<', '>', '&', '\r']) :
    TypeSafe S D X ⟨tag, decls, [], tx, tl⟩ :=
  ⟨hd, once_nil _, fun _ hm => by (cases hm), hs⟩

/-- The prefixes that the root binds. -/
def BoundAtRoot (B : String → Prop) (t : Node) : Prop := ∀ e, t.root? = some e → ∀ p, B p → ∃ M, (some p, M) ∈ e.decls

/-- Every element is safe and the root binds the prefixes. -/
def MeaningKept (S : Prop) (D : String → String → Prop) (X B : String → Prop) (t : Node) : Prop := t.All (TypeSafe S D X) ∧ BoundAtRoot B t

variable {B : String → Prop}

theorem kept_root {t t' : Node} (h : t'.root? = t.root?) (ha : t'.All (TypeSafe S D X)) (ht : MeaningKept S D X B t) : MeaningKept S D X B t' :=
  ⟨ha, fun e he => ht.2 e (h ▸ he)⟩

theorem kept_edit {t : Node} {F : Ctx → Elem} (ht : MeaningKept S D X B t)
    (h : ∀ c ∈ t.elems, TypeSafe S D X c.e → TypeSafe S D X (F c) ∧
      ∀ p, (∃ M, (some p, M) ∈ c.e.decls) → ∃ M, (some p, M) ∈ (F c).decls) : MeaningKept S D X B (t.edit F) := by
  refine ⟨all_edit ht.1 (fun c hc hs => (h c hc hs).1), fun e he p hp => ?_⟩
  cases t with
  | other _ _ => cases he
  | elem e0 ks =>
    rw [root_edit] at he
    cases he
    have hm : rootCtx e0 ks ∈ (Node.elem e0 ks).elems := by simp [Node.elems, Node.walk, rootCtx]
    exact (h _ hm (all_elems.1 ht.1 _ hm)).2 p (ht.2 e0 rfl p hp)

/-- An edit that leaves declarations and types alone. -/
def Mild (e e' : Elem) : Prop := e'.decls = e.decls ∧ ∀ (S : Prop) (D : String → String → Prop) (X : String → Prop),
  TypeSafe S D X e → TypeSafe S D X e'

theorem Mild.refl (e : Elem) : Mild e e := ⟨rfl, fun _ _ _ h => h⟩
theorem Mild.comp {a b c : Elem} (h : Mild a b) (h' : Mild b c) : Mild a c :=
  ⟨h'.1.trans h.1, fun S D X x => h'.2 S D X (h.2 S D X x)⟩

theorem mild_set {e : Elem} {k : QName} {v : String} (h : k ≠ xsiTypeAttr) : Mild e (e.set k v) := by
  refine ⟨rfl, fun S D X x => typeSafe_of x (fun _ h => h) (fun a ha hk => ?_) (once_set h x.once) x.plain⟩
  rcases mem_attrs_set ha with h' | h'
  · exact h'
  · subst h'; exact absurd hk h

theorem mild_del {e : Elem} {k : QName} : Mild e (e.del k) :=
  ⟨rfl, fun _ _ _ x => typeSafe_of x (fun _ h => h) (fun _ ha _ => (List.mem_filter.1 ha).1) (once_del x.once) x.plain⟩

theorem mild_schemaloc (u : Cls) (c : Ctx) : Mild c.e (schemalocEdit u c) := by
  unfold schemalocEdit
  split
  · unfold Cls.updateSchemalocsElem
    split
    · exact .refl _
    · exact mild_set (by decide)
  · exact .refl _

theorem mild_version {m : List (String × String)} {alts : List XAlt} {g : Elem → Elem} (hg : ∀ e, Mild e (g e)) (c : Ctx) :
    Mild c.e (versionEdit m alts g c) := by
  unfold versionEdit
  split
  · exact hg _
  · exact .refl _

theorem mild_201 (e : Elem) : Mild e (setVersion201 e) :=
  ((mild_set (by decide)).comp (mild_set (by decide))).comp (mild_set (by decide))

theorem mild_21 (e : Elem) : Mild e (setVersion21 e) :=
  ((mild_set (by decide)).comp (mild_set (by decide))).comp mild_del

theorem mild_stixVersion (i v : String) (e : Elem) : Mild e (setStixVersion i v e) := by
  unfold setStixVersion
  split <;> exact mild_set (by decide)

theorem mild_listElem (e : Elem) : Mild e (updateListElem e) := by
  unfold updateListElem
  split
  · exact .refl _
  · next s hs =>
    split
    · exact .refl _
    · refine ⟨rfl, fun S D X x => typeSafe_of x (fun _ h => h) (fun _ h _ => h) x.once ?_⟩
      intro hS ht s' hs' ch hch
      simp only [Option.some.injEq] at hs'
      subst hs'
      simp only [updateListText, pyReplace, String.toList_ofList] at hch
      rcases replaceAux_mem hch with h | h
      · rcases replaceAux_mem h with h | h
        · exact x.plain hS ht s hs ch h
        · exact (by decide : ∀ c ∈ "##comma##".toList, c ∉ ['<', '>', '&', '\r']) ch h
      · exact (by decide : ∀ c ∈ ",".toList, c ∉ ['<', '>', '&', '\r']) ch h

theorem mild_iter : ∀ (n : Nat) (e : Elem), Mild e (iter updateListElem n e)
  | 0, _ => .refl _
  | n + 1, e => (mild_iter n e).comp (mild_listElem _)

theorem kept_mild {t : Node} {F : Ctx → Elem} (ht : MeaningKept S D X B t) (h : ∀ c, Mild c.e (F c)) : MeaningKept S D X B (t.edit F) :=
  kept_edit ht (fun c _ hs => ⟨(h c).2 S D X hs, fun p hp => by rw [(h c).1]; exact hp⟩)

theorem kept_schemaloc {t : Node} (u : Cls) (ht : MeaningKept S D X B t) : MeaningKept S D X B (u.updateSchemalocs t) := by
  rw [updateSchemalocs_eq]; exact kept_mild ht (mild_schemaloc u)

theorem kept_stixVersions {t : Node} (u : Cls) (i v : String) (ht : MeaningKept S D X B t) : MeaningKept S D X B (stixUpdateVersions u i v t) := by
  rw [stixVersions_eq]; exact kept_mild ht (mild_version (mild_stixVersion i v))

theorem kept_optionalsIf {b : Bool} {fs : List Finder} {t t' : Node}
    (h : (if b then removeOptionals fs t else .ok t) = .ok t') (ht : MeaningKept S D X B t) : MeaningKept S D X B t' :=
  kept_root (root_optionalsIf h) (all_optionalsIf ht.1 h) ht

/-! ### Namespaces -/

theorem dedup_prefix {p : Option String} : ∀ {m : NsMap}, (∃ M, (p, M) ∈ m) → ∃ M, (p, M) ∈ m.dedup
  | [], ⟨_, h⟩ => by cases h
  | (q, u) :: rest, ⟨M, h⟩ => by
    by_cases e : p = q
    · exact ⟨u, by rw [e]; simp [NsMap.dedup]⟩
    · rcases List.mem_cons.1 h with h' | h'
      · cases h'; exact absurd rfl e
      · obtain ⟨M', h2⟩ := dedup_prefix ⟨M, h'⟩
        exact ⟨M', by simp only [NsMap.dedup, List.mem_cons, List.mem_filter]; exact Or.inr ⟨h2, by simpa using e⟩⟩

mutual
theorem walk_decls {pos : Pos} {env : NsMap} {anc : List QName} : ∀ (t : Node), ∀ c ∈ t.walk pos env anc, ∀ x ∈ c.e.decls, x ∈ c.env
  | .other _ _, c, h, _, _ => by simp [Node.walk] at h
  | .elem e ks, c, h, x, hx => by
    simp only [Node.walk, List.mem_cons] at h
    rcases h with rfl | h
    · exact List.mem_append_left _ hx
    · exact walks_decls ks c h x hx
theorem walks_decls {pos : Pos} {i : Nat} {env : NsMap} {anc : List QName} : ∀ (ks : List Node),
    ∀ c ∈ Node.walks pos i env anc ks, ∀ x ∈ c.e.decls, x ∈ c.env
  | [], c, h, _, _ => by simp [Node.walks] at h
  | k :: ks, c, h, x, hx => by
    simp only [Node.walks, List.mem_append] at h
    rcases h with h | h
    · exact walk_decls k c h x hx
    · exact walks_decls ks c h x hx
end

theorem kept_ns (hX : MeaningKeeps w D X) {u : Cls} (hu : ∀ p ∈ u.updateNsMap, p ∈ movedNs) (hd : u.disallowedNs = []) {t : Node}
    (ht : MeaningKept S D X B t) : MeaningKept S D X B (u.updateNamespaces [] t) := by
  rw [updateNamespaces_eq]
  refine kept_edit ht (fun c hc hs => ?_)
  unfold nsEdit
  split
  · next hn =>
    have h2 : u.remappedTag c.e.tag ∉ sourceTags :=
      renamed_source (fun y hy => fun X hX' => moved_not_source y (hu y hy) X hX') hn
    refine ⟨⟨fun p M' hm => ?_, hs.once, hs.types, fun _ h => absurd h h2⟩, fun p hp => ?_⟩
    · obtain ⟨M, hM, h⟩ := remap_mem hm
      obtain ⟨d, hd, hdm⟩ := env_declared hc hM
      have hk := (all_elems.1 ht.1 d hd).decls p M hdm
      rcases h with ⟨rfl, _⟩ | h
      · exact hk
      · exact hX.moved p M M' hk (hu _ h)
    · obtain ⟨M, hM⟩ := hp
      obtain ⟨M2, h3⟩ := dedup_prefix (p := some p) (m := c.env) ⟨M, walk_decls t c hc _ hM⟩
      refine ⟨(assoc u.updateNsMap M2).getD M2, ?_⟩
      show _ ∈ u.remapNamespaces c.env
      unfold Cls.remapNamespaces
      exact List.mem_map.2 ⟨(some p, M2), List.mem_filter.2 ⟨h3, by rw [hd]; simp⟩, rfl⟩
  · exact ⟨hs, fun _ h => h⟩

/-! ### Vocabularies -/

theorem kept_vocabs (hX : MeaningKeeps w D X) {u : Updater} {b : Bool} {vs : List Vocab} {rows : List VocabRow} (hr : StepRows w u rows)
    (hm : MatchesAll vs rows) {t t' : Node} (h : (if b then updateVocabs vs t else .ok t) = .ok t') (ht : MeaningKept S D X B t) :
    MeaningKept S D X B t' := by
  cases b with
  | false => cases h; exact ht
  | true =>
    simp only [if_true] at h
    have hst := stepRows_stable hr
    obtain ⟨F, hF, he, hspec⟩ := updateVocabs_spec hm hst h
    refine kept_root (root_updateVocabs h) ?_ ht
    rw [he]
    refine all_edit ht.1 (fun c hc hs => ?_)
    by_cases ho : ∃ row ∈ rows, ∃ p, Outdated row p c
    · obtain ⟨row, hrow, p, ho⟩ := ho
      have hw := (hspec c hc).1 row hrow p ho
      obtain ⟨_, ty, hty, v, hv, hq, _⟩ := ho
      refine ⟨by rw [hw.2.1]; exact hs.decls, once_keys hw.2.2.2.2.1 hs.once, ?_, ?_⟩
      · intro a ha hk
        have hg := get_of_once (once_keys hw.2.2.2.2.1 hs.once) ha hk
        have hg' := hw.2.2.2.2.2 xsiTypeAttr
        rw [show (F c).get? xsiTypeAttr = some a.2 from hg, if_pos (show xsiTypeAttr = ⟨some "http://www.w3.org/2001/XMLSchema-instance", "type"⟩ from rfl)] at hg'
        rw [Option.some.inj hg']
        have hx := hs.types _ (mem_of_get? hv) rfl
        dsimp only at hx
        rw [hq.1] at hx
        exact hX.later u rows row p ty hr hrow hty (by rw [← hq.1]; exact hq) hx
      · intro hS hsrc s hx
        rw [hw.1] at hsrc
        rw [hw.2.2.2.1] at hx
        cases ht : c.e.text with
        | none => rw [ht] at hx; cases hx
        | some s0 =>
          rw [ht] at hx
          simp only [Option.map_some, Option.some.injEq] at hx
          cases ha : assoc row.corrected s0 with
          | none => rw [ha, Option.getD_none] at hx; subst hx; exact hs.plain hS hsrc s0 ht
          | some b => rw [ha, Option.getD_some] at hx; subst hx; exact (rows_fine hr row hrow).2 _ (assoc_mem ha)
    · rw [(hspec c hc).2 (fun row hr p ho' => ho ⟨row, hr, p, ho'⟩)]; exact hs

/-! ### Fields -/

theorem safe_wrap {tag : QName} {ks : List Node} (h : ∀ k ∈ ks, k.All (TypeSafe S D X)) :
    (newElem tag [] none ks).All (TypeSafe S D X) :=
  ⟨typeSafe_new (fun _ _ h => by cases h) (fun _ _ _ h => by cases h), alls_iff.2 h⟩

theorem safe_retag {tag : QName} (h : tag ∉ sourceTags) {e : Elem} {ks : List Node}
    (he : (Node.elem e ks).All (TypeSafe S D X)) : (Node.elem { e with tag := tag } ks).All (TypeSafe S D X) :=
  ⟨typeSafe_of he.1 (fun _ h => h) (fun _ h _ => h) he.1.once (fun _ hs => absurd hs h), he.2⟩

theorem safe_value {n : String} (hn : XName.resolve Tables.cybox201_nsmap ⟨"HTTPSessionObj", n⟩ ∉ sourceTags)
    {t t' : Node} (h : (⟨[rel "HTTPSessionObj" n], Tables.cybox201_nsmap, .value (some ⟨"URIObj", "Value"⟩) none true []⟩ : Trans).translate t
      = .ok t') (ht : t.All (TypeSafe S D X)) : t'.All (TypeSafe S D X) := by
  rw [translate_value_eq] at h
  refine all_custom h ht (fun c nn hs hc hnn => ?_)
  rw [rel_selects] at hs
  unfold translateValue valueNode at hnn
  simp only at hnn
  cases hf : (childCtxs c 0 c.kids).find? (fun k => decide (k.e.tag = XName.resolve Tables.cybox201_nsmap ⟨"URIObj", "Value"⟩)) with
  | none => rw [hf] at hnn; cases hnn
  | some k =>
    rw [hf] at hnn
    simp only [Except.ok.injEq] at hnn
    obtain ⟨i, j1, _, _⟩ := find_childCtxs (p := fun e => decide (e.tag = XName.resolve Tables.cybox201_nsmap ⟨"URIObj", "Value"⟩)) hf
    have hk : TypeSafe S D X k.e := (alls_iff.1 hc.2 _ (List.mem_of_getElem? j1)).1
    subst hnn
    refine ⟨typeSafe_of hk (fun _ h => by cases h) (fun a ha _ => ?_) (once_updateAll _ _ (once_nil _)) (fun _ hsrc => ?_), trivial⟩
    · exact (mem_updateAll ha).elim (fun h => by cases h) id
    · exact absurd (show c.e.tag ∈ sourceTags from hsrc) (by rw [hs.2]; exact hn)

theorem safe_refresh {t t' : Node} (h : transRefresh.translate t = .ok t') (ht : t.All (TypeSafe S D X)) : t'.All (TypeSafe S D X) := by
  unfold transRefresh at h
  rw [translate_value_eq] at h
  refine all_custom h ht (fun c n hs hc hn => ?_)
  simp only [translateValue, valueNode, Except.ok.injEq] at hn
  subst hn
  refine ⟨typeSafe_of hc.1 (fun _ h => by cases h) (fun a ha hk => ?_) ?_ hc.1.plain, trivial⟩
  · simp only [overrideAttrs] at ha
    split at ha
    · rcases mem_attrs_set ha with ha | ha
      · exact (mem_updateAll ha).elim (fun h => by cases h) id
      · subst ha; exact absurd hk (by decide)
    · exact (mem_updateAll ha).elim (fun h => by cases h) id
  · show AtMostOnce xsiTypeAttr (overrideAttrs c.e [(.plain "datatype", "string")] (Attrs.updateAll [] c.e.attrs))
    simp only [overrideAttrs]
    split
    · exact once_set (by decide) (once_updateAll _ _ (once_nil _))
    · exact once_updateAll _ _ (once_nil _)

theorem safe_renamed {p n : String} {m : List (String × String)} {tag : QName}
    (h2 : tag ∉ sourceTags) {t t' : Node} (h : (⟨[rel p n], m, .renamed tag⟩ : Trans).translate t = .ok t')
    (ht : t.All (TypeSafe S D X)) : t'.All (TypeSafe S D X) := by
  rw [translate_renamed] at h
  cases h
  refine all_edit ht (fun c _ hs => ?_)
  unfold renBelow ren1
  split
  · exact hs
  · refine typeSafe_of hs (fun _ h => h) (fun _ h _ => h) hs.once (fun hS hsrc => ?_)
    dsimp only at hsrc
    split at hsrc
    · exact absurd hsrc h2
    · exact hs.plain hS hsrc

theorem safe_mailslot {t t' : Node} (h : transMailslot.translate t = .ok t')
    (ht : t.All (TypeSafe S D X)) : t'.All (TypeSafe S D X) := by
  refine (translate_parent h).all ht ?_
  rintro c n hc ⟨e, ks, hk, _, rfl⟩
  exact safe_retag (by decide) (alls_iff.1 hc.2 _ hk)

theorem kept_fields201 {t t' : Node} (h : translateFields cybox201Translatable t = .ok t') (ht : MeaningKept S D X B t) : MeaningKept S D X B t' := by
  refine kept_root (root_translateFields (by decide +kernel) h) ?_ ht
  refine keep_translateFields (P := fun t => t.All (TypeSafe S D X)) ?_ h ht.1
  intro f hf a b hab ha
  simp only [cybox201Translatable, List.mem_cons, List.not_mem_nil, or_false] at hf
  rcases hf with rfl | rfl | rfl | rfl | rfl | rfl | rfl | rfl
  · exact safe_value (by decide +kernel) hab ha
  · exact safe_value (by decide +kernel) hab ha
  · exact safe_refresh hab ha
  · exact safe_renamed (by decide) hab ha
  · exact safe_renamed (by decide) hab ha
  · exact safe_renamed (by decide) hab ha
  · exact safe_renamed (by decide) hab ha
  · exact safe_mailslot hab ha

theorem kept_fields101 {t t' : Node}
    (h : translateFields (stix101Cls w).translatable t = .ok t') (ht : MeaningKept S D X B t) : MeaningKept S D X B t' := by
  have h' : translateFields [transContributors, transExploitTargets] t = .ok t' := h
  refine kept_root (root_translateFields (by decide +kernel) h') ?_ ht
  refine keep_translateFields (P := fun t => t.All (TypeSafe S D X)) ?_ h' ht.1
  intro f hf a b hab ha
  simp only [List.mem_cons, List.not_mem_nil, or_false] at hf
  rcases hf with rfl | rfl
  · refine all_custom hab ha (fun c n _ hc hn => ?_)
    unfold translateContributors at hn
    split at hn
    · cases hn
    · next ks hks =>
      cases hn
      refine safe_wrap (fun k hk => ?_)
      obtain ⟨x, hx, hxk⟩ := mapE_mem hks k hk
      cases x with
      | other _ _ => cases hxk
      | elem e es =>
        cases hxk
        refine safe_wrap (fun k' hk' => ?_)
        simp only [List.mem_singleton] at hk'
        subst hk'
        exact safe_retag (by decide) (alls_iff.1 hc.2 _ hx)
  · refine all_custom hab ha (fun c n _ hc hn => ?_)
    cases hn
    refine safe_wrap (fun k hk => ?_)
    simp only [List.mem_singleton] at hk
    subst hk
    exact hc

theorem safe_source (hS : S) {alts : List XAlt} {m : List (String × String)} {tag : QName}
    {d d' : NsMap} {g : Ctx → Except Err Node} (hg : ∀ c, xmlPlain (formatText c.e.text) = true →
      g c = .ok (sourceNode tag d d' (formatText c.e.text))) (hs : ∀ a ∈ alts, a.tag.resolve m ∈ sourceTags)
    (hd : ∀ p M, (some p, M) ∈ d → D p M) (hd' : ∀ p M, (some p, M) ∈ d' → D p M) {t t' : Node}
    (h : (⟨alts, m, .custom g⟩ : Trans).translate t = .ok t') (ht : t.All (TypeSafe S D X)) : t'.All (TypeSafe S D X) := by
  refine all_custom h ht (fun c n hsel hc hn => ?_)
  have htag : c.e.tag ∈ sourceTags := by
    obtain ⟨a, ha, hc⟩ := List.any_eq_true.1 hsel
    unfold XAlt.selects at hc
    simp only [Bool.and_eq_true, decide_eq_true_eq] at hc
    rw [hc.1.1]; exact hs a ha
  rw [hg c (plain_text (hc.1.plain hS htag)).1] at hn
  cases hn
  have white : ∀ s : String, (∀ ch ∈ s.toList, ch ∉ ['<', '>', '&', '\r']) → ∀ x, some s = some x →
      ∀ ch ∈ x.toList, ch ∉ ['<', '>', '&', '\r'] := fun s h x e => by cases e; exact h
  exact ⟨typeSafe_new hd (fun _ _ => white _ (by decide)), ⟨typeSafe_new hd' (fun _ _ => white _ (by decide)),
    ⟨typeSafe_new (fun _ _ h => by cases h) (fun _ _ => white _ (plain_text (hc.1.plain hS htag)).2), trivial⟩, trivial⟩, trivial⟩

theorem kept_fields11 (hX : MeaningKeeps w D X) (hS : S) {t t' : Node}
    (h : translateFields (stix11Cls w).translatable t = .ok t') (ht : MeaningKept S D X B t) : MeaningKept S D X B t' := by
  have h' : translateFields [transCommonSource w, transSightingsSource w, transRelatedCampaign] t = .ok t' := h
  have hc : ∀ p M, (some p, M) ∈ ([(some "stixCommon", nsCommon)] : NsMap) → D p M := by
    intro p M h
    simp only [List.mem_singleton, Prod.mk.injEq, Option.some.injEq] at h
    obtain ⟨rfl, rfl⟩ := h
    exact hX.common
  have hi : ∀ p M, (some p, M) ∈ ([(some "indicator", nsIndicator)] : NsMap) → D p M := by
    intro p M h
    simp only [List.mem_singleton, Prod.mk.injEq, Option.some.injEq] at h
    obtain ⟨rfl, rfl⟩ := h
    exact hX.indicator
  refine kept_root (root_translateFields ?_ h') ?_ ht
  · intro f hf
    simp only [List.mem_cons, List.not_mem_nil, or_false] at hf
    rcases hf with rfl | rfl | rfl
    · exact (show BelowRoot (sourceParents.map (fun p => relIn p.1 p.2 "stixCommon" "Source")) by decide +kernel)
    · exact (show BelowRoot [relIn "indicator" "Sighting" "indicator" "Source"] by decide +kernel)
    · decide +kernel
  refine keep_translateFields (P := fun t => t.All (TypeSafe S D X)) ?_ h' ht.1
  intro f hf a b hab ha
  simp only [List.mem_cons, List.not_mem_nil, or_false] at hf
  rcases hf with rfl | rfl | rfl
  · exact safe_source hS (g := translateCommonSource w) (tag := ⟨some nsCommon, "Source"⟩) (d := [(some "stixCommon", nsCommon)]) (d' := [])
      (fun c hc => by unfold translateCommonSource; simp only [hc, if_true])
      (by decide +kernel) hc (fun _ _ h => by cases h) hab ha
  · exact safe_source hS (g := translateSightingSource w) (tag := ⟨some nsIndicator, "Source"⟩) (d := [(some "indicator", nsIndicator)])
      (d' := [(some "stixCommon", nsCommon)]) (fun c hc => by unfold translateSightingSource; simp only [hc, if_true])
      (by decide +kernel) hi hc hab ha
  · refine all_custom hab ha (fun c n _ hc hn => ?_)
    cases hn
    refine safe_wrap (fun k hk => ?_)
    simp only [List.mem_singleton] at hk
    subst hk
    exact safe_retag (by decide) hc

/-! ### Steps -/

theorem kept_update20 (hX : MeaningKeeps w D X) {n : List (String × String)} {sel : List XAlt} {o : Options} {t t' : Node}
    (h : cybox20Update (cybox20Cls n sel) o t = .ok t') (ht : MeaningKept S D X B t) : MeaningKept S D X B t' := by
  simp only [cybox20Update] at h
  rw [cybox20Versions_eq, updateLists_eq] at h
  refine kept_vocabs hX .cybox20 (stepRows_matches (w := w) .cybox20) h ?_
  exact kept_mild (kept_mild (kept_schemaloc _ ht) (mild_version mild_201)) (fun c => mild_iter _ _)

theorem kept_update201 (hX : MeaningKeeps w D X) {n : List (String × String)} {sel : List XAlt} {o : Options} {t t' : Node}
    (h : cybox201Update (cybox201Cls n sel) o t = .ok t') (ht : MeaningKept S D X B t) : MeaningKept S D X B t' := by
  simp only [cybox201Update] at h
  rw [cybox201Versions_eq] at h
  split at h
  · cases h
  · next t1 h1 =>
    split at h
    · cases h
    · next t2 h2 =>
      refine kept_optionalsIf h ?_
      refine kept_vocabs hX .cybox201 (stepRows_matches (w := w) .cybox201) h2 (kept_fields201 h1 ?_)
      exact kept_mild (kept_schemaloc _ (kept_ns hX (by simp only [cybox201Cls]; decide) rfl ht)) (mild_version mild_21)

theorem kept_update (hX : MeaningKeeps w D X) {u : Updater} (hu : Registered w u) (hS : u = stix11 w → S) {o : Options} {t t' : Node}
    (h : u.update o t = .ok t') (ht : MeaningKept S D X B t) : MeaningKept S D X B t' := by
  cases hu with
  | cybox20 => exact kept_update20 hX h ht
  | cybox201 => exact kept_update201 hX h ht
  | stix10 =>
    simp only [stix10, stix10Update] at h
    split at h
    · cases h
    · next t1 h1 =>
      rw [updateNamespaces_none (u := stix10Cls) rfl] at h
      exact kept_vocabs hX .stix10 (stepRows_matches (w := w) .stix10) h (kept_stixVersions _ _ _ (kept_schemaloc _ (kept_update20 hX h1 ht)))
  | stix101 =>
    simp only [stix101, stix101Update] at h
    split at h
    · cases h
    · next t1 h1 =>
      rw [updateNamespaces_none (u := stix101Cls w) rfl] at h
      split at h
      · cases h
      · next t2 h2 =>
        split at h
        · cases h
        · next t3 h3 =>
          refine kept_optionalsIf h ?_
          exact kept_vocabs hX .stix101 (stepRows_matches (w := w) .stix101) h3
            (kept_fields101 h2 (kept_stixVersions _ _ _ (kept_schemaloc _ (kept_update201 hX h1 ht))))
  | stix11 =>
    simp only [stix11, stix11Update] at h
    split at h
    · cases h
    · next t2 h2 =>
      split at h
      · cases h
      · next t3 h3 =>
        refine kept_optionalsIf h ?_
        exact kept_vocabs hX .stix11 (stepRows_matches (w := w) .stix11) h3
          (kept_fields11 hX (hS rfl) h2 (kept_stixVersions _ _ _ (kept_schemaloc _ (kept_schemaloc _ ht))))
  | stix111 =>
    simp only [stix111, stix111Update] at h
    exact kept_vocabs hX .stix111 (stepRows_matches (w := w) .stix111) h (kept_stixVersions _ _ _ (kept_schemaloc _ ht))
  | stix12 =>
    simp only [stix12, stix12Update, Except.ok.injEq] at h
    have h2 : MeaningKept S D X B (stix12Cls.updateSchemalocs (stix12Cls.updateNamespaces [] t)) :=
      kept_schemaloc stix12Cls (kept_ns hX (u := stix12Cls) (by rw [oasis_eq]; exact fun _ h => List.mem_cons_of_mem _ h) rfl ht)
    subst h
    generalize stix12Cls.updateSchemalocs (stix12Cls.updateNamespaces [] t) = x at h2 ⊢
    cases x with
    | other _ _ => exact h2
    | elem e ks =>
      refine ⟨⟨(mild_set (by decide)).2 S D X h2.1.1, h2.1.2⟩, fun e' he' => ?_⟩
      cases he'
      exact h2.2 e rfl

theorem kept_step (hX : MeaningKeeps w D X) {u : Updater} (hu : Registered w u) (hS : u = stix11 w → S) {o : Options} {force : Bool}
    {k k' : Nat} {t : Node} {r : Result} (h : stepUpdate u o force k t = .ok (r, k')) (ht : MeaningKept S D X B t) : MeaningKept S D X B r.doc := by
  simp only [stepUpdate] at h
  split at h
  · next d hd =>
    simp only [tryUpdate] at hd
    cases h
    split at hd
    · cases hd
    · exact kept_update hX hu hS hd ht
  · split at h
    · simp only [forceUpdate] at h
      split at h
      · cases h
      · next r1 k1 hc =>
        split at h
        · cases h
        · next d hd =>
          cases h
          obtain ⟨rules, nss, ty, V, hr⟩ := registered_rules hu
          refine kept_update hX hu hS hd (kept_root (root_clean hu hc) ?_ ht)
          obtain ⟨F, l, ν, n, _, _, h1, h2, h3, _⟩ := clean_spec hr hc
          rw [h3]
          refine all_pruneCtx _ (all_edit ht.1 (fun c hc hs => ?_))
          by_cases hd : DupAt nss t c
          · rw [h1 c hc hd]; exact (mild_set (by decide)).2 S D X hs
          · rw [h2 c hc hd]; exact hs
    · cases h

end

/-! ### The predicates -/

/-- Declarations that stem from `t` or from the steps. -/
def DeclaredFrom (t : Node) (p N : String) : Prop :=
  ∃ N0, (Declares t p N0 ∨ (p, N0) ∈ [("stixCommon", nsCommon), ("indicator", nsIndicator)]) ∧ SuccNs N0 N

/-- Types that stem from `t`. -/
def TypeFrom (w : World) (t : Node) (v : String) : Prop :=
  ∀ p ty, IsQType v p ty → ∃ c0 ∈ t.elems, ∃ v0 ty0, c0.e.get? xsiTypeAttr = some v0 ∧ IsQType v0 p ty0 ∧ LaterName w ty0 ty

theorem from_sound (w : World) (t : Node) : MeaningKeeps w (DeclaredFrom t) (TypeFrom w t) where
  moved := by
    rintro p N N' ⟨N0, h0, h1⟩ h2
    rcases h1 with rfl | h1
    · exact ⟨N, h0, Or.inr h2⟩
    · exact absurd rfl (spelling_moved.2.2 _ h1 _ h2)
  common := ⟨nsCommon, Or.inr (by simp), Or.inl rfl⟩
  indicator := ⟨nsIndicator, Or.inr (by simp), Or.inl rfl⟩
  later := by
    intro u rows row p ty hr hrow hty hq hx p' ty' hq'
    have hn : IsQType (p ++ ":" ++ row.new) p row.new := ⟨rfl, hq.2.1, (stable_new (stepRows_stable hr) row hrow).1⟩
    obtain ⟨rfl, rfl⟩ := isQType_unique hn hq'
    obtain ⟨c0, h0, v0, ty0, h1, h2, h3⟩ := hx p ty hq
    exact ⟨c0, h0, v0, ty0, h1, h2, .revised h3 hr hrow hty⟩

mutual
theorem walk_scope {pos : Pos} {env : NsMap} {anc : List QName} : ∀ (t : Node), ∀ c ∈ t.walk pos env anc, ∀ x ∈ env, x ∈ c.env
  | .other _ _, c, h, _, _ => by simp [Node.walk] at h
  | .elem e ks, c, h, x, hx => by
    simp only [Node.walk, List.mem_cons] at h
    rcases h with rfl | h
    · exact List.mem_append_right _ hx
    · exact walks_scope ks c h x (List.mem_append_right _ hx)
theorem walks_scope {pos : Pos} {i : Nat} {env : NsMap} {anc : List QName} : ∀ (ks : List Node),
    ∀ c ∈ Node.walks pos i env anc ks, ∀ x ∈ env, x ∈ c.env
  | [], c, h, _, _ => by simp [Node.walks] at h
  | k :: ks, c, h, x, hx => by
    simp only [Node.walks, List.mem_append] at h
    rcases h with h | h
    · exact walk_scope k c h x hx
    · exact walks_scope ks c h x hx
end

/-- The declarations of the root are in scope everywhere. -/
theorem root_env {t : Node} {e : Elem} (he : t.root? = some e) {c : Ctx} (hc : c ∈ t.elems) : ∀ x ∈ e.decls, x ∈ c.env := by
  cases t with
  | other _ _ => cases he
  | elem e0 ks =>
    cases he
    intro x hx
    simp only [Node.elems, Node.walk, List.mem_cons] at hc
    rcases hc with rfl | h
    · exact List.mem_append_left _ hx
    · exact walks_scope ks c h x (List.mem_append_left _ hx)

theorem nsGet_of_mem {m : NsMap} {p : Option String} {M : String} (h : (p, M) ∈ m) : ∃ N, NsMap.get? m p = some N := by
  induction m with
  | nil => cases h
  | cons x xs ih =>
    obtain ⟨q, u⟩ := x
    simp only [NsMap.get?]
    split
    · exact ⟨u, rfl⟩
    · next e =>
      rcases List.mem_cons.1 h with h' | h'
      · cases h'; exact absurd rfl e
      · exact ih h'

theorem kept_self {S : Prop} (w : World) {t : Node} (h1 : RootDeclares t) (h2 : OneType t) (hS : S → SourcesPlain t) :
    MeaningKept S (DeclaredFrom t) (TypeFrom w t) (fun p => ∃ N, Declares t p N) t := by
  refine ⟨all_elems.2 (fun c hc => ⟨fun p M hm => ⟨M, Or.inl ⟨c, hc, hm⟩, Or.inl rfl⟩, h2 c hc, ?_, fun hs => hS hs c hc⟩), ?_⟩
  · intro a ha hk p ty hq
    exact ⟨c, hc, a.2, ty, get_of_once (h2 c hc) ha hk, hq, .same _⟩
  · rintro e he p ⟨N, hN⟩
    exact h1.root e he p N hN

theorem means_of {S : Prop} {w : World} {t d : Node} (h1 : RootDeclares t)
    (h : MeaningKept S (DeclaredFrom t) (TypeFrom w t) (fun p => ∃ N, Declares t p N) d) : ∀ c ∈ d.elems, MeansAsIn w t c := by
  intro c hc v p ty hv hq
  obtain ⟨c0, h0, v0, ty0, hv0, hq0, hl⟩ := (all_elems.1 h.1 c hc).types _ (mem_of_get? hv) rfl p ty hq
  refine ⟨c0, h0, v0, ty0, hv0, hq0, hl, fun N0 hN0 => ?_⟩
  have hD := bound_declared h0 hN0
  cases d with
  | other _ _ => simp [Node.elems, Node.walk] at hc
  | elem e ks =>
    obtain ⟨M, hM⟩ := h.2 e rfl p ⟨N0, hD⟩
    obtain ⟨N, hN⟩ := nsGet_of_mem (root_env (e := e) rfl hc _ hM)
    refine ⟨N, hN, ?_⟩
    obtain ⟨c1, hc1, hm1⟩ := bound_declared hc hN
    obtain ⟨M0, hM0, hs⟩ := (all_elems.1 h.1 c1 hc1).decls p N hm1
    have : M0 = N0 := by
      rcases hM0 with hM0 | hM0
      · exact h1.same p N0 M0 hD hM0
      · simp only [List.mem_cons, List.not_mem_nil, or_false, Prod.mk.injEq] at hM0
        rcases hM0 with ⟨rfl, rfl⟩ | ⟨rfl, rfl⟩
        · exact (h1.common N0 hD).symm
        · exact (h1.indicator N0 hD).symm
    rw [← this]; exact hs

theorem means_chain {S : Prop} {w : World} {t : Node} {reg : List (String × Updater)}
    (hreg : ∀ v u, assoc reg v = some u → Registered w u ∧ (u = stix11 w → S)) (h1 : RootDeclares t) (h2 : OneType t)
    (hS : S → SourcesPlain t) {vs : List String} {f g : Option String} {o : Options} {force : Bool} {k k' : Nat} {r : Result}
    (h : runChain vs reg t f g o force k = .ok (r, k')) : ∀ c ∈ r.doc.elems, MeansAsIn w t c := by
  simp only [runChain] at h
  split at h
  · cases h
  · exact means_of h1 (chain_done (fun _ d => MeaningKept S (DeclaredFrom t) (TypeFrom w t) (fun p => ∃ N, Declares t p N) d) _ [] _ r k k' h
      (kept_self w h1 h2 hS) (fun _ v _ u _ _ _ _ _ hu hs hi => kept_step (from_sound w t) (hreg v u hu).1 (hreg v u hu).2 hs hi))

/-! ## C64 -/

/-- C64: in the result of a whole update, forced or not, every type stems from a type of the source and means the same.
Partial: the prefixes must be declared on the root with one meaning (see `C64_dropped_fails` and `C64_rebound_fails`), and the
sources that are strings must have no markup characters. -/
theorem C64_stix_partial (w : World) (t : Node) (h1 : RootDeclares t) (h2 : OneType t) (hp : SourcesPlain t)
    (from_ to_ : Option String) (o : Options) (force : Bool) (k k' : Nat) (r : Result)
    (h : stixUpdate w t from_ to_ o force k = .ok (r, k')) : ∀ c ∈ r.doc.elems, MeansAsIn w t c := by
  simp only [stixUpdate] at h
  exact means_chain (S := True) (fun v u hu => ⟨registered_stix hu, fun _ => trivial⟩) h1 h2 (fun _ => hp) h

/-- C64 for CybOX documents. -/
theorem C64_cybox_partial (w : World) (t : Node) (h1 : RootDeclares t) (h2 : OneType t)
    (from_ to_ : Option String) (o : Options) (force : Bool) (k k' : Nat) (r : Result)
    (h : cyboxUpdate t from_ to_ o force k = .ok (r, k')) : ∀ c ∈ r.doc.elems, MeansAsIn w t c := by
  simp only [cyboxUpdate] at h
  split at h
  · cases h
  · exact means_chain (S := False) (fun v u hu => ⟨registered_cybox hu, fun e => absurd e (cybox_not_stix11 hu)⟩) h1 h2 (fun h => h.elim) h

/-! ### Cases that meet the hypotheses -/

/-- A document declares its prefixes as asked, checked on the list of declarations. -/
theorem rootDeclares_of {t : Node} {e : Elem} (he : t.root? = some e)
    (h : ∀ a ∈ t.declared, (∃ b ∈ e.decls, b.1 = a.1) ∧ (∀ b ∈ t.declared, a.1 = b.1 → b.2 = a.2) ∧
      (a.1 = some "stixCommon" → a.2 = nsCommon) ∧ (a.1 = some "indicator" → a.2 = nsIndicator)) : RootDeclares t where
  root := by
    intro e' he' p N hN
    rw [he] at he'
    cases he'
    obtain ⟨b, hb, e1⟩ := (h _ (declares_iff.1 hN)).1
    obtain ⟨q, M⟩ := b
    cases e1
    exact ⟨M, hb⟩
  same := fun p N M hN hM => (h _ (declares_iff.1 hN)).2.1 _ (declares_iff.1 hM) rfl
  common := fun N hN => (h _ (declares_iff.1 hN)).2.2.1 rfl
  indicator := fun N hN => (h _ (declares_iff.1 hN)).2.2.2 rfl

instance (t : Node) : Decidable (OneType t) := by unfold OneType AtMostOnce; infer_instance
instance (t : Node) : Decidable (SourcesPlain t) := by unfold SourcesPlain; infer_instance

/-- A 1.1 package with a type above a source that becomes an element with declarations. -/
def docMeanings : Node :=
  stixDoc "1.1" [el nsTTP "Intended_Effect" [xsiType "ttp:T"] [el nsCommon "Source" [] [] (some "me")]]

example : RootDeclares docMeanings ∧ OneType docMeanings ∧ SourcesPlain docMeanings ∧
    ∃ r, stixUpdate w0 docMeanings none (some "1.1.1") o0 false 0 = .ok r ∧
      r.1.doc.elems.map (fun c => (c.e.tag.name, c.e.get? xsiTypeAttr, c.e.decls.length)) =
        [("STIX_Package", none, 7), ("Intended_Effect", some "ttp:T", 0), ("Source", none, 1), ("Identity", none, 0), ("Name", none, 0)] :=
  ⟨rootDeclares_of (e := (docMeanings.root?).get rfl) rfl (by decide +kernel), by decide +kernel, by decide +kernel, ok_of_eval (by decide +kernel)⟩

/-- A 1.2 package with types in a namespace that is replaced. -/
def docMeanings12 : Node := stixDoc "1.2" [el nsTTP "Motivation" [xsiType "stixVocabs:MotivationVocab-1.1"], el "urn:x" "Y" [xsiType "stixVocabs:T"]]

example : RootDeclares docMeanings12 ∧ OneType docMeanings12 ∧ SourcesPlain docMeanings12 ∧
    ∃ r, stixUpdate w0 docMeanings12 none (some "1.2.1") o0 true 0 = .ok r ∧
      r.1.doc.elems.map (fun c => (c.e.get? xsiTypeAttr, NsMap.get? c.env (some "stixVocabs"))) =
        [(none, some laterWords), (some "stixVocabs:MotivationVocab-1.1", some laterWords), (some "stixVocabs:T", some laterWords)] :=
  ⟨rootDeclares_of (e := (docMeanings12.root?).get rfl) rfl (by decide +kernel), by decide +kernel, by decide +kernel, ok_of_eval (by decide +kernel)⟩

example : RootDeclares (cyboxDoc v20 [el nsCyboxCore "Type" [xsiType "cyboxVocabs:ActionNameVocab-1.0"]]) ∧
    OneType (cyboxDoc v20 [el nsCyboxCore "Type" [xsiType "cyboxVocabs:ActionNameVocab-1.0"]]) ∧
    ∃ r, cyboxUpdate (cyboxDoc v20 [el nsCyboxCore "Type" [xsiType "cyboxVocabs:ActionNameVocab-1.0"]]) none none o0 true 0 = .ok r ∧
      r.1.doc.elems.map (fun c => c.e.get? xsiTypeAttr) = [none, some "cyboxVocabs:ActionNameVocab-1.1"] :=
  ⟨rootDeclares_of (e := ((cyboxDoc v20 [el nsCyboxCore "Type" [xsiType "cyboxVocabs:ActionNameVocab-1.0"]]).root?).get rfl) rfl
    (by decide +kernel), by decide +kernel, ok_of_eval (by decide +kernel)⟩

/-! ### Where it fails -/

/-- A field whose value has a type and declares the prefix of it. -/
def docDropped : Node :=
  cyboxDoc v201 [el "http://cybox.mitre.org/objects#HTTPSessionObject-2" "DNT" []
    [el "http://cybox.mitre.org/objects#URIObject-2" "Value" [xsiType "x:T"] [] (some "1") [(some "x", "urn:x")]]]

/-- A type with a prefix that is not bound as in the source. -/
theorem not_means {w : World} {t : Node} {c : Ctx} {v p ty : String}
    (hv : c.e.get? ⟨some "http://www.w3.org/2001/XMLSchema-instance", "type"⟩ = some v) (hq : IsQType v p ty) {N0 : String}
    (h0 : ∀ c0 ∈ t.elems, c0.e.get? ⟨some "http://www.w3.org/2001/XMLSchema-instance", "type"⟩ ≠ none →
      NsMap.get? c0.env (some p) = some N0) (hn : ∀ N, NsMap.get? c.env (some p) = some N → N ≠ N0 ∧ ∀ x ∈ movedNs, x.1 ≠ N0) :
    ¬ MeansAsIn w t c := by
  intro h
  obtain ⟨c0, hc0, v0, ty0, hv0, _, _, hb⟩ := h v p ty hv hq
  obtain ⟨N, hN, hs⟩ := hb N0 (h0 c0 hc0 (by rw [hv0]; simp))
  rcases hs with rfl | hs
  · exact (hn N hN).1 rfl
  · exact (hn N hN).2 _ hs rfl

/-- C64 fails for declarations on replaced elements: the type of the value goes to the new field and the declaration of its
prefix does not.  With the vocabulary update on, the step stops at this type with a `KeyError`. -/
theorem C64_dropped_fails : OneType docDropped ∧
    (∃ r k, cyboxUpdate docDropped none none { o0 with updateVocabularies := false } false 0 = .ok (r, k) ∧
      ∃ c ∈ r.doc.elems, c.e.get? xsiTypeAttr = some "x:T" ∧ NsMap.get? c.env (some "x") = none ∧ ¬ MeansAsIn w0 docDropped c) ∧
    cyboxUpdate docDropped none none o0 false 0 = .error .keyError := by
  have h : ∃ r, cyboxUpdate docDropped none none { o0 with updateVocabularies := false } false 0 = .ok r ∧
      ∃ c ∈ r.1.doc.elems, c.e.get? xsiTypeAttr = some "x:T" ∧ NsMap.get? c.env (some "x") = none := ok_of_eval (by decide +kernel)
  obtain ⟨⟨r, k⟩, h1, c, hc, ht, he⟩ := h
  refine ⟨by decide +kernel, ⟨r, k, h1, c, hc, ht, he, not_means (p := "x") (ty := "T") (N0 := "urn:x") ht
    ⟨by decide, by decide, by decide⟩ (by decide +kernel) (fun N hN => by rw [he] at hN; cases hN)⟩, by decide +kernel⟩

/-- C64 fails for prefixes with two meanings: when the outer of two handles is dropped, the type of the inner one gets the
meaning that the prefix has on the root. -/
theorem C64_rebound_fails : ∃ r k, cyboxUpdate docRebound none none o0 false 0 = .ok (r, k) ∧ OneType docRebound ∧
    ∃ c ∈ r.doc.elems, NsMap.get? c.env (some "cyboxVocabs") = some cyboxWords ∧ ¬ MeansAsIn w0 docRebound c := by
  have h : ∃ r, cyboxUpdate docRebound none none o0 false 0 = .ok r ∧ (∃ c ∈ r.1.doc.elems,
      c.e.get? xsiTypeAttr = some "cyboxVocabs:EventTypeVocab-1.0" ∧ NsMap.get? c.env (some "cyboxVocabs") = some cyboxWords) :=
    ok_of_eval (by decide +kernel)
  obtain ⟨⟨r, k⟩, h1, c, hc, ht, he⟩ := h
  refine ⟨r, k, h1, by decide +kernel, c, hc, he, not_means (p := "cyboxVocabs") (ty := "EventTypeVocab-1.0") (N0 := "urn:other") ht
    ⟨by decide, by decide, by decide⟩ (by decide +kernel) (fun N hN => ?_)⟩
  rw [he] at hN
  cases hN
  exact ⟨by decide, by decide⟩

end Ramrod

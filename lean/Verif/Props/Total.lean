import Verif.Props.Untrans
import Verif.Props.Versions
import Verif.Props.Namespaces
import Verif.Props.StixFields
import Verif.Props.Clean
/-!
# C12: forced updates return a result
-/

namespace Ramrod
open Samples

/-! ## Specification -/

/-- The `xsi:type` attribute. -/
def xsiTypeAttr : QName := ⟨some "http://www.w3.org/2001/XMLSchema-instance", "type"⟩

/-- The three CybOX version attributes. -/
def cyboxVersionAttrs : List QName :=
  [⟨none, "cybox_major_version"⟩, ⟨none, "cybox_minor_version"⟩, ⟨none, "cybox_update_version"⟩]

/-- An attribute the updaters can read: an `xsi:type` is a qualified name with a prefix among `ps`; if versions
are checked, a version is empty or well-formed, and CybOX version numbers are empty or decimal. -/
def AttrFine (checks : Bool) (ps : List String) (a : QName × String) : Prop :=
  (a.1 = xsiTypeAttr → ∃ p ty, IsQType a.2 p ty ∧ p ∈ ps) ∧
  (checks = true → a.1 = ⟨none, "version"⟩ → a.2 = "" ∨ ¬ Malformed a.2) ∧
  (checks = true → a.1 ∈ cyboxVersionAttrs → a.2 = "" ∨ Digits a.2.toList)

/-- The outdated types whose vocabulary has an unusable reference in the code. -/
def brokenTypes : List String := ["PlanningAndOperationalSupportVocab-1.0", "ObjectRelationshipVocab-1.0"]

/-- An element the updaters can process. -/
structure ElemFine (checks : Bool) (ps : List String) (e : Elem) : Prop where
  /-- its attributes can be read -/
  attrs : ∀ a ∈ e.attrs, AttrFine checks ps a
  /-- it has no `vocab_reference` together with one of the two types -/
  refs : ∀ a ∈ e.attrs, a.1 = ⟨none, "vocab_reference"⟩ → ∀ b ∈ e.attrs, b.1 = xsiTypeAttr →
    ∀ p ty, IsQType b.2 p ty → ty ∉ brokenTypes
  /-- a `Source` has a text without markup characters -/
  sources : e.tag ∈ sourceTags → ∀ s, e.text = some s → ∀ ch ∈ s.toList, ch ∉ ['<', '>', '&', '\r']

def contributorsTag : QName := ⟨some "http://stix.mitre.org/common-1", "Contributors"⟩
def uriHolders : List QName := [⟨some "http://cybox.mitre.org/objects#HTTPSessionObject-2", "DNT"⟩,
  ⟨some "http://cybox.mitre.org/objects#HTTPSessionObject-2", "Vary"⟩]
def uriValueTag : QName := ⟨some "http://cybox.mitre.org/objects#URIObject-2", "Value"⟩

/-- The children of a `Contributors` element are elements (no comments). -/
def OnlyElements (e : Elem) (ks : List Node) : Prop :=
  e.tag = contributorsTag → ∀ k ∈ ks, ∃ e' ks', k = .elem e' ks'

/-- An element with one of the names has a URI value, without `xsi:type`. -/
def HoldsValue (tags : List QName) (e : Elem) (ks : List Node) : Prop :=
  e.tag ∈ tags → ∃ e' ks', Node.elem e' ks' ∈ ks ∧ e'.tag = uriValueTag ∧ e'.get? xsiTypeAttr = none

/-- The root element declares the prefixes. -/
def RootBinds (ps : List String) (t : Node) : Prop :=
  ∃ e ks, t = .elem e ks ∧ ∀ p ∈ ps, NsMap.get? e.decls (some p) ≠ none

/-- Documents in order: the prefixes of `xsi:type` values are declared on the root element, every element can be
processed, and lists of contributors have no comments. -/
structure InOrder (checks : Bool) (ps : List String) (t : Node) : Prop where
  root : RootBinds ps t
  elems : ∀ c ∈ t.elems, ElemFine checks ps c.e
  contributors : ∀ c ∈ t.elems, OnlyElements c.e c.kids

/-- Every `DNT` and `Vary` header has its value. -/
def HasValues (t : Node) : Prop := ∀ c ∈ t.elems, HoldsValue uriHolders c.e c.kids

/-! ## Helpers: attributes -/

theorem mem_set {as : Attrs} {k : QName} {v : String} {x : QName × String} (h : x ∈ Attrs.set as k v) :
    x ∈ as ∨ x = (k, v) := by
  induction as with
  | nil => simp [Attrs.set] at h; exact Or.inr h
  | cons y ys ih =>
    obtain ⟨k', v'⟩ := y
    simp only [Attrs.set] at h
    split at h
    · next hk =>
      rcases List.mem_cons.1 h with h | h
      · subst hk; exact Or.inr h
      · exact Or.inl (by simp [h])
    · rcases List.mem_cons.1 h with h | h
      · exact Or.inl (by simp [h])
      · rcases ih h with h | h
        · exact Or.inl (by simp [h])
        · exact Or.inr h

theorem mem_of_get? {as : Attrs} {k : QName} {v : String} (h : Attrs.get? as k = some v) : (k, v) ∈ as := by
  induction as with
  | nil => cases h
  | cons y ys ih =>
    obtain ⟨k', v'⟩ := y
    simp only [Attrs.get?] at h
    split at h
    · next hk => cases h; subst hk; simp
    · exact List.mem_cons_of_mem _ (ih h)

theorem get?_none_of {as : Attrs} {k : QName} (h : ∀ a ∈ as, a.1 ≠ k) : Attrs.get? as k = none := by
  cases hg : Attrs.get? as k with
  | none => rfl
  | some v => exact absurd rfl (h _ (mem_of_get? hg))

theorem no_key {as : Attrs} {k : QName} (h : Attrs.get? as k = none) : ∀ a ∈ as, a.1 ≠ k := by
  induction as with
  | nil => simp
  | cons y ys ih =>
    obtain ⟨k', v'⟩ := y
    simp only [Attrs.get?] at h
    split at h
    · cases h
    · next hk =>
      intro a ha
      rcases List.mem_cons.1 ha with rfl | ha
      · exact hk
      · exact ih h a ha

/-- An attribute that can be added to any element. -/
def Harmless (checks : Bool) (ps : List String) (a : QName × String) : Prop :=
  AttrFine checks ps a ∧ a.1 ≠ xsiTypeAttr ∧ a.1 ≠ ⟨none, "vocab_reference"⟩

theorem harmless_of {checks : Bool} {ps : List String} {k : QName} {v : String}
    (h : k ∉ [xsiTypeAttr, ⟨none, "vocab_reference"⟩, ⟨none, "version"⟩] ++ cyboxVersionAttrs) :
    Harmless checks ps (k, v) := by
  simp only [List.mem_append, List.mem_cons, List.not_mem_nil, or_false, not_or] at h
  exact ⟨⟨fun e => absurd e h.1.1, fun _ e => absurd e h.1.2.2, fun _ e => absurd e h.2⟩, h.1.1, h.1.2.1⟩

/-- Fewer attributes, or more harmless ones. -/
theorem fine_attrs {checks : Bool} {ps : List String} {e e' : Elem} (h : ElemFine checks ps e)
    (ha : ∀ a ∈ e'.attrs, a ∈ e.attrs ∨ Harmless checks ps a)
    (hs : e'.tag ∈ sourceTags → ∀ s, e'.text = some s → ∀ ch ∈ s.toList, ch ∉ ['<', '>', '&', '\r']) :
    ElemFine checks ps e' where
  attrs := fun a hm => (ha a hm).elim (h.attrs a) (fun x => x.1)
  refs := fun a hm hk b hb hkb => by
    rcases ha a hm with ha' | ha'
    · rcases ha b hb with hb' | hb'
      · exact h.refs a ha' hk b hb' hkb
      · exact absurd hkb hb'.2.1
    · exact absurd hk ha'.2.2
  sources := hs

/-! ## Helpers: one element of an edited document -/

/-- What an edit of an element has to respect. -/
structure Gentle (checks : Bool) (ps : List String) (e e' : Elem) : Prop where
  tags : ∀ X ∈ contributorsTag :: uriValueTag :: uriHolders, e'.tag = X ↔ e.tag = X
  untyped : e.get? xsiTypeAttr = none → e'.get? xsiTypeAttr = none
  decls : ∀ p, NsMap.get? e.decls p ≠ none → NsMap.get? e'.decls p ≠ none
  fine : ElemFine checks ps e → ElemFine checks ps e'

theorem Gentle.refl (checks : Bool) (ps : List String) (e : Elem) : Gentle checks ps e e :=
  ⟨fun _ _ => Iff.rfl, fun h => h, fun _ h => h, fun h => h⟩

theorem Gentle.comp {checks : Bool} {ps : List String} (a b c : Elem) (h : Gentle checks ps a b)
    (h' : Gentle checks ps b c) : Gentle checks ps a c :=
  ⟨fun X hX => (h'.tags X hX).trans (h.tags X hX), fun x => h'.untyped (h.untyped x), fun p x => h'.decls p (h.decls p x),
    fun x => h'.fine (h.fine x)⟩

theorem gentle_set {checks : Bool} {ps : List String} {e : Elem} {k : QName} {v : String}
    (h : Harmless checks ps (k, v)) : Gentle checks ps e (e.set k v) where
  tags := fun _ _ => Iff.rfl
  untyped := fun hu => by
    show Attrs.get? (Attrs.set e.attrs k v) xsiTypeAttr = none
    rw [attrs_get_set, if_neg h.2.1]
    exact hu
  decls := fun _ x => x
  fine := fun hf => fine_attrs hf (fun a ha => (mem_set ha).imp id (fun x => by subst x; exact h)) hf.sources

theorem gentle_del {checks : Bool} {ps : List String} {e : Elem} {k : QName} : Gentle checks ps e (e.del k) where
  tags := fun _ _ => Iff.rfl
  untyped := fun hu => get?_none_of (fun a ha hk => by
    have hm := (List.mem_filter.1 ha).1
    exact no_key hu a hm hk)
  decls := fun _ x => x
  fine := fun hf => fine_attrs hf (fun _ ha => Or.inl (List.mem_filter.1 ha).1) hf.sources

theorem gentle_schemaloc {checks : Bool} {ps : List String} (u : Cls) (c : Ctx) :
    Gentle checks ps c.e (schemalocEdit u c) := by
  unfold schemalocEdit
  split
  · unfold Cls.updateSchemalocsElem
    split
    · exact .refl _ _ _
    · exact gentle_set (harmless_of (by decide))
  · exact .refl _ _ _

theorem digits_of {ds : List Char} (h : (ds ≠ [] ∧ ds.all (fun c => '0' ≤ c ∧ c ≤ '9') = true)) : Digits ds := by
  refine ⟨h.1, fun c hc => ?_⟩
  have := List.all_eq_true.1 h.2 c hc
  exact of_decide_eq_true this

theorem harmless_cybox {checks : Bool} {ps : List String} {k : QName} {v : String} (hk : k ∈ cyboxVersionAttrs)
    (hv : v = "" ∨ Digits v.toList) : Harmless checks ps (k, v) := by
  have : ∀ k ∈ cyboxVersionAttrs, k ≠ xsiTypeAttr ∧ k ≠ ⟨none, "version"⟩ ∧ k ≠ ⟨none, "vocab_reference"⟩ := by decide
  obtain ⟨h1, h2, h3⟩ := this k hk
  exact ⟨⟨fun e => absurd e h1, fun _ e => absurd e h2, fun _ _ => hv⟩, h1, h3⟩

theorem harmless_version {checks : Bool} {ps : List String} {v : String} (hv : ¬ Malformed v) :
    Harmless checks ps (attrVersion, v) := by
  have h : attrVersion ≠ xsiTypeAttr ∧ attrVersion ∉ cyboxVersionAttrs ∧ attrVersion ≠ ⟨none, "vocab_reference"⟩ := by
    decide
  exact ⟨⟨fun e => absurd e h.1, fun _ _ => Or.inr hv, fun _ e => absurd e h.2.1⟩, h.1, h.2.2⟩

theorem gentle_201 {checks : Bool} {ps : List String} (e : Elem) : Gentle checks ps e (setVersion201 e) :=
  Gentle.comp _ _ _ (Gentle.comp _ _ _
    (gentle_set (harmless_cybox (by decide) (Or.inr (digits_of (by decide)))))
    (gentle_set (harmless_cybox (by decide) (Or.inr (digits_of (by decide))))))
    (gentle_set (harmless_cybox (by decide) (Or.inr (digits_of (by decide)))))

theorem gentle_21 {checks : Bool} {ps : List String} (e : Elem) : Gentle checks ps e (setVersion21 e) :=
  Gentle.comp _ _ _ (Gentle.comp _ _ _
    (gentle_set (harmless_cybox (by decide) (Or.inr (digits_of (by decide)))))
    (gentle_set (harmless_cybox (by decide) (Or.inr (digits_of (by decide))))))
    gentle_del

theorem gentle_stixVersion {checks : Bool} {ps : List String} {i v : String} (hi : ¬ Malformed i) (hv : ¬ Malformed v)
    (e : Elem) : Gentle checks ps e (setStixVersion i v e) := by
  unfold setStixVersion
  split
  · exact gentle_set (harmless_version hi)
  · exact gentle_set (harmless_version hv)

theorem gentle_version {checks : Bool} {ps : List String} {m : List (String × String)} {alts : List XAlt}
    {g : Elem → Elem} (hg : ∀ e, Gentle checks ps e (g e)) (c : Ctx) :
    Gentle checks ps c.e (versionEdit m alts g c) := by
  unfold versionEdit
  split
  · exact hg _
  · exact .refl _ _ _

theorem replaceAux_mem {old new : List Char} : ∀ {cs : List Char} {n : Nat} {ch : Char},
    ch ∈ replaceAux old new n cs → ch ∈ cs ∨ ch ∈ new
  | [], _, _, h => by simp [replaceAux] at h
  | c :: cs, 0, ch, h => by
    simp only [replaceAux] at h
    split at h
    · rcases List.mem_append.1 h with h | h
      · exact Or.inr h
      · exact (replaceAux_mem h).imp (fun x => by simp [x]) id
    · rcases List.mem_cons.1 h with h | h
      · exact Or.inl (by simp [h])
      · exact (replaceAux_mem h).imp (fun x => by simp [x]) id
  | c :: cs, n + 1, ch, h => by
    simp only [replaceAux] at h
    exact (replaceAux_mem h).imp (fun x => by simp [x]) id

theorem gentle_listElem {checks : Bool} {ps : List String} (e : Elem) : Gentle checks ps e (updateListElem e) := by
  unfold updateListElem
  split
  · exact .refl _ _ _
  · next s hs =>
    split
    · exact .refl _ _ _
    · refine ⟨fun _ _ => Iff.rfl, fun h => h, fun _ h => h, fun hf => fine_attrs hf (fun _ h => Or.inl h) ?_⟩
      intro ht s' hs' ch hch
      simp only [Option.some.injEq] at hs'
      subst hs'
      simp only [updateListText, pyReplace, String.toList_ofList] at hch
      rcases replaceAux_mem hch with h | h
      · rcases replaceAux_mem h with h | h
        · exact hf.sources ht s hs ch h
        · exact (by decide : ∀ c ∈ "##comma##".toList, c ∉ ['<', '>', '&', '\r']) ch h
      · exact (by decide : ∀ c ∈ ",".toList, c ∉ ['<', '>', '&', '\r']) ch h

theorem gentle_iter {checks : Bool} {ps : List String} : ∀ (n : Nat) (e : Elem), Gentle checks ps e (iter updateListElem n e)
  | 0, _ => .refl _ _ _
  | n + 1, e => Gentle.comp _ _ _ (gentle_iter n e) (gentle_listElem _)

theorem gentle_lists {checks : Bool} {ps : List String} (m : List (String × String)) (c : Ctx) :
    Gentle checks ps c.e (listsEdit m c) := gentle_iter _ _

theorem gentle_tags {checks : Bool} {ps : List String} {e e' : Elem} (ht : e'.tag = e.tag) (hd : e'.decls = e.decls)
    (ha : e'.attrs = e.attrs) (hs : ElemFine checks ps e → e'.tag ∈ sourceTags → ∀ s, e'.text = some s →
      ∀ ch ∈ s.toList, ch ∉ ['<', '>', '&', '\r']) : Gentle checks ps e e' where
  tags := fun _ _ => by rw [ht]
  untyped := fun h => by unfold Elem.get? at *; rw [ha]; exact h
  decls := fun _ h => by rw [hd]; exact h
  fine := fun hf => fine_attrs hf (fun a h => Or.inl (by rw [← ha]; exact h)) (hs hf)

/-! ### Vocabularies -/

/-- What the two tables of a vocabulary class have to satisfy. -/
def VocabFine (v : Vocab) : Prop :=
  (v.reference = none → ∀ ty ∈ v.oldTypes, ty ∈ brokenTypes) ∧ ':' ∉ v.newType.toList ∧ v.newType ∉ brokenTypes ∧
  ∀ x ∈ v.terms, ∀ ch ∈ x.2.toList, ch ∉ ['<', '>', '&', '\r']

instance (v : Vocab) : Decidable (VocabFine v) := by unfold VocabFine; infer_instance

theorem gentle_text {checks : Bool} {ps : List String} {v : Vocab} (hv : VocabFine v) (e e' : Elem)
    (h : (match e.text with
      | some value => (match assoc v.terms value with
        | some new => (Except.ok { e with text := some new } : Except Err Elem)
        | none => .ok e)
      | none => .ok e) = .ok e') : Gentle checks ps e e' := by
  split at h
  · split at h
    · next new hn =>
      cases h
      refine gentle_tags rfl rfl rfl (fun _ _ s hs => ?_)
      simp only [Option.some.injEq] at hs
      subst hs
      exact hv.2.2.2 _ (assoc_mem hn)
    · cases h; exact .refl _ _ _
  · cases h; exact .refl _ _ _

theorem gentle_setName {checks : Bool} {ps : List String} (e : Elem) (n : String) :
    Gentle checks ps e (if e.has attrVocabName then e.set attrVocabName n else e) := by
  split
  · exact gentle_set (harmless_of (by decide))
  · exact .refl _ _ _

/-- Setting type and reference of a typed element. -/
theorem gentle_setType {checks : Bool} {ps : List String} {v : Vocab} (hv : VocabFine v) {e e2 : Elem} {p ty : String}
    (ht : getTypeInfo e = .ok (p, ty))
    (h : (if (e.set tagXsiType (p ++ ":" ++ v.newType)).has attrVocabReference then
        match v.reference with
        | some r => (Except.ok ((e.set tagXsiType (p ++ ":" ++ v.newType)).set attrVocabReference r) : Except Err Elem)
        | none => .error .typeError
      else .ok (e.set tagXsiType (p ++ ":" ++ v.newType))) = .ok e2) : Gentle checks ps e e2 := by
  obtain ⟨s, hs, hq⟩ := getTypeInfo_ok.1 ht
  have hm := mem_of_get? (as := e.attrs) hs
  have hq' : IsQType (p ++ ":" ++ v.newType) p v.newType := ⟨rfl, hq.2.1, hv.2.1⟩
  have key : e2.tag = e.tag ∧ e2.text = e.text ∧ e2.decls = e.decls ∧ ∀ a ∈ e2.attrs, a ∈ e.attrs ∨
      a = (tagXsiType, p ++ ":" ++ v.newType) ∨ (a.1 = attrVocabReference ∧ ∃ a' ∈ e.attrs, a'.1 = attrVocabReference) := by
    split at h
    · next hh =>
      split at h
      · next r hr =>
        cases h
        refine ⟨rfl, rfl, rfl, fun a ha => ?_⟩
        rcases mem_set ha with ha | ha
        · exact (mem_set ha).imp id Or.inl
        · refine Or.inr (Or.inr ⟨by rw [ha], ?_⟩)
          unfold Elem.has Attrs.has at hh
          obtain ⟨x, hx⟩ := Option.isSome_iff_exists.1 hh
          rcases mem_set (mem_of_get? hx) with h' | h'
          · exact ⟨_, h', rfl⟩
          · exact absurd (congrArg Prod.fst h') (by show ¬ (attrVocabReference = tagXsiType); decide)
      · cases h
    · cases h
      exact ⟨rfl, rfl, rfl, fun a ha => (mem_set ha).imp id Or.inl⟩
  obtain ⟨k1, k2, k3, k4⟩ := key
  refine ⟨fun _ _ => by rw [k1], fun hu => ?_, fun _ h => by rw [k3]; exact h, fun hf => ⟨fun a ha => ?_, ?_, ?_⟩⟩
  · exact absurd (hu.symm.trans hs) (by simp)
  · rcases k4 a ha with h' | rfl | ⟨h', _⟩
    · exact hf.attrs a h'
    · obtain ⟨p', ty', hq2, hp⟩ := (hf.attrs _ hm).1 rfl
      have := (isQType_unique hq hq2).1
      subst this
      exact ⟨fun _ => ⟨p, v.newType, hq', hp⟩, fun _ e => absurd e (by show ¬ (tagXsiType = _); decide),
        fun _ e => absurd e (by show ¬ (tagXsiType ∈ _); decide)⟩
    · rw [show a = (attrVocabReference, a.2) from by rw [← h']]
      exact ⟨fun e => absurd e (by show ¬ (attrVocabReference = _); decide),
        fun _ e => absurd e (by show ¬ (attrVocabReference = _); decide),
        fun _ e => absurd e (by show ¬ (attrVocabReference ∈ _); decide)⟩
  · intro a ha hk b hb hkb p1 ty1 hq1
    have : ∃ a' ∈ e.attrs, a'.1 = attrVocabReference := by
      rcases k4 a ha with h' | rfl | ⟨_, h'⟩
      · exact ⟨a, h', hk⟩
      · exact absurd hk (by show ¬ (tagXsiType = _); decide)
      · exact h'
    obtain ⟨a', ha', hk'⟩ := this
    rcases k4 b hb with h' | rfl | ⟨h', _⟩
    · exact hf.refs a' ha' hk' b h' hkb p1 ty1 hq1
    · have := (isQType_unique hq' hq1).2
      subst this
      exact hv.2.2.1
    · rw [h'] at hkb
      exact absurd hkb (by decide)
  · rw [k1, k2]; exact hf.sources

theorem gentle_updateNode {checks : Bool} {ps : List String} {v : Vocab} (hv : VocabFine v) {e e' : Elem}
    (h : v.updateNode e = .ok e') : Gentle checks ps e e' := by
  simp only [Vocab.updateNode] at h
  split at h
  · cases h
  · next p ty ht =>
    split at h
    · cases h
    · next e2 h2 =>
      exact Gentle.comp _ _ _ (gentle_setType hv ht h2) (Gentle.comp _ _ _ (gentle_setName e2 v.name) (gentle_text hv _ _ h))

theorem gentle_vocab {checks : Bool} {ps : List String} {v : Vocab} (hv : VocabFine v) (c : Ctx) :
    Gentle checks ps c.e (v.edit c) := by
  unfold Vocab.edit
  split
  · split
    · next h => exact gentle_updateNode hv h
    · exact .refl _ _ _
  · exact .refl _ _ _

/-! ### Namespaces -/

theorem nsMap_left (m m' : NsMap) (p : Option String) :
    NsMap.get? m p ≠ none → NsMap.get? (m ++ m') p ≠ none := by
  induction m with
  | nil => intro h; exact absurd rfl h
  | cons x xs ih =>
    obtain ⟨q, u⟩ := x
    simp only [List.cons_append, NsMap.get?]
    split
    · exact id
    · exact ih

theorem nsMap_right (m m' : NsMap) (p : Option String) :
    NsMap.get? m' p ≠ none → NsMap.get? (m ++ m') p ≠ none := by
  induction m with
  | nil => exact id
  | cons x xs ih =>
    obtain ⟨q, u⟩ := x
    simp only [List.cons_append, NsMap.get?]
    split
    · intro _ h; cases h
    · exact ih

theorem gentle_ns {checks : Bool} {ps : List String} {u : Cls} (hu : u.updateNsMap = Tables.cybox201_updateNsMap)
    (hd : u.disallowedNs = []) (c : Ctx) (hc : ∃ env, c.env = c.e.decls ++ env) : Gentle checks ps c.e (nsEdit u c) := by
  unfold nsEdit
  split
  · next hn =>
    have key : ∀ q : QName, u.nsUpdated q = true → ∀ X ∈ contributorsTag :: uriValueTag :: uriHolders ++ sourceTags,
        u.remappedTag q ≠ X ∧ q ≠ X := by
      intro q hq X hX
      have h1 : u.nsUpdated X = false := by
        unfold Cls.nsUpdated; rw [hu]; revert X; decide +kernel
      refine ⟨fun h => ?_, fun h => by rw [h, h1] at hq; cases hq⟩
      obtain ⟨ns, nm⟩ := q
      unfold Cls.nsUpdated at hq
      rw [hu] at hq
      cases ns with
      | none => simp at hq
      | some n =>
        simp only [Cls.remappedTag, hu, Option.map_some] at h
        obtain ⟨x, hx⟩ := Option.isSome_iff_exists.1 hq
        rw [hx] at h
        have hy := assoc_mem hx
        have : ∀ y ∈ Tables.cybox201_updateNsMap, ∀ X ∈ contributorsTag :: uriValueTag :: uriHolders ++ sourceTags,
            X.ns ≠ some y.2 := by decide +kernel
        exact this _ hy X hX (by rw [← h]; rfl)
    have k := key _ hn
    refine ⟨fun X hX => ?_, fun h => h, fun p hp => ?_, fun hf => fine_attrs hf (fun _ h => Or.inl h) (fun ht => ?_)⟩
    · have := k X (List.mem_append_left _ hX)
      exact ⟨fun h => absurd h this.1, fun h => absurd h this.2⟩
    · obtain ⟨env, he⟩ := hc
      show NsMap.get? (u.remapNamespaces c.env) p ≠ none
      unfold Cls.remapNamespaces
      rw [hd, List.filter_eq_self.2 (by simp), nsMap_map (f := fun x => (assoc u.updateNsMap x).getD x), nsMap_dedup, he]
      have := nsMap_left c.e.decls env p hp
      cases h' : NsMap.get? (c.e.decls ++ env) p with
      | none => exact absurd h' this
      | some _ => simp
    · exact absurd rfl (k _ (List.mem_append_right _ ht)).1
  · exact .refl _ _ _

/-! ## Helpers: documents -/

mutual
/-- Every element of the subtree, with its children, satisfies `Q`. -/
def Node.Each (Q : Elem → List Node → Prop) : Node → Prop
  | .other _ _ => True
  | .elem e ks => Q e ks ∧ Node.Eachs Q ks
/-- `Each` for the children. -/
def Node.Eachs (Q : Elem → List Node → Prop) : List Node → Prop
  | [] => True
  | k :: ks => k.Each Q ∧ Node.Eachs Q ks
end

mutual
theorem each_iff {Q : Elem → List Node → Prop} (pos : Pos) (env : NsMap) (anc : List QName) : ∀ t : Node,
    t.Each Q ↔ ∀ c ∈ t.walk pos env anc, Q c.e c.kids
  | .other _ _ => by simp [Node.Each, Node.walk]
  | .elem e ks => by
    simp only [Node.Each, Node.walk, List.forall_mem_cons]
    rw [eachs_iff pos 0 (e.decls ++ env) (e.tag :: anc) ks]
theorem eachs_iff {Q : Elem → List Node → Prop} (pos : Pos) (i : Nat) (env : NsMap) (anc : List QName) : ∀ ks : List Node,
    Node.Eachs Q ks ↔ ∀ c ∈ Node.walks pos i env anc ks, Q c.e c.kids
  | [] => by simp [Node.Eachs, Node.walks]
  | k :: ks => by
    simp only [Node.Eachs, Node.walks, List.forall_mem_append]
    rw [each_iff (i :: pos) env anc k, eachs_iff pos (i + 1) env anc ks]
end

theorem each_elems {Q : Elem → List Node → Prop} {t : Node} : t.Each Q ↔ ∀ c ∈ t.elems, Q c.e c.kids := each_iff _ _ _ t

theorem eachs_mem {Q : Elem → List Node → Prop} : ∀ {ks : List Node}, Node.Eachs Q ks ↔ ∀ k ∈ ks, k.Each Q
  | [] => by simp [Node.Eachs]
  | k :: ks => by simp [Node.Eachs, eachs_mem (ks := ks)]

mutual
theorem each_of_walk {Q : Elem → List Node → Prop} {pos : Pos} {env : NsMap} {anc : List QName} : ∀ (t : Node), t.Each Q →
    ∀ c ∈ t.walk pos env anc, c.node.Each Q
  | .other _ _, _, c, hc => by simp [Node.walk] at hc
  | .elem e ks, h, c, hc => by
    simp only [Node.walk, List.mem_cons] at hc
    rcases hc with rfl | hc
    · exact h
    · exact each_of_walks ks h.2 c hc
theorem each_of_walks {Q : Elem → List Node → Prop} {pos : Pos} {i : Nat} {env : NsMap} {anc : List QName} :
    ∀ (ks : List Node), Node.Eachs Q ks → ∀ c ∈ Node.walks pos i env anc ks, c.node.Each Q
  | [], _, c, hc => by simp [Node.walks] at hc
  | k :: ks, h, c, hc => by
    simp only [Node.walks, List.mem_append] at hc
    rcases hc with hc | hc
    · exact each_of_walk k h.1 c hc
    · exact each_of_walks ks h.2 c hc
end

mutual
theorem each_rel {P : Elem → Elem → Prop} {Q Q' : Elem → List Node → Prop}
    (hQ : ∀ e e' ks ks', P e e' → Node.Rels P ks ks' → Q e ks → Q' e' ks') : ∀ {a b : Node},
    Node.Rel P a b → a.Each Q → b.Each Q'
  | .elem _ _, .elem _ _, h, ha => by
    simp only [Node.Rel] at h
    exact ⟨hQ _ _ _ _ h.1 h.2 ha.1, eachs_rels hQ h.2 ha.2⟩
  | .other _ _, .other _ _, _, _ => by simp [Node.Each]
  | .elem _ _, .other _ _, h, _ => by simp only [Node.Rel] at h
  | .other _ _, .elem _ _, h, _ => by simp only [Node.Rel] at h
theorem eachs_rels {P : Elem → Elem → Prop} {Q Q' : Elem → List Node → Prop}
    (hQ : ∀ e e' ks ks', P e e' → Node.Rels P ks ks' → Q e ks → Q' e' ks') : ∀ {a b : List Node},
    Node.Rels P a b → Node.Eachs Q a → Node.Eachs Q' b
  | [], [], _, _ => by simp [Node.Eachs]
  | _ :: _, _ :: _, h, ha => by
    simp only [Node.Rels] at h
    exact ⟨each_rel hQ h.1 ha.1, eachs_rels hQ h.2 ha.2⟩
  | [], _ :: _, h, _ => by simp only [Node.Rels] at h
  | _ :: _, [], h, _ => by simp only [Node.Rels] at h
end

mutual
theorem each_substCtx {Q Q' : Elem → List Node → Prop} {R : Ctx → Option Node} {pos : Pos} {env : NsMap} {anc : List QName} :
    ∀ (t : Node), (∀ c ∈ t.walk pos env anc, ∀ n, R c = some n → c.node.Each Q → n.Each Q') →
    (∀ c ∈ t.walk pos env anc, R c = none → Q c.e c.kids →
      Q' c.e (Node.substCtxs R c.pos 0 c.env (c.e.tag :: c.anc) c.kids)) →
    t.Each Q → (t.substCtx R pos env anc).Each Q'
  | .other _ _, _, _, _ => by simp [Node.substCtx, Node.Each]
  | .elem e ks, hR, hK, h => by
    simp only [Node.substCtx]
    split
    · next n hn => exact hR ⟨pos, e.decls ++ env, anc, e, ks⟩ (by simp [Node.walk]) n hn h
    · next hn =>
      exact ⟨hK ⟨pos, e.decls ++ env, anc, e, ks⟩ (by simp [Node.walk]) hn h.1,
        eachs_substCtxs ks (fun c hc => hR c (by simp [Node.walk, hc])) (fun c hc => hK c (by simp [Node.walk, hc])) h.2⟩
theorem eachs_substCtxs {Q Q' : Elem → List Node → Prop} {R : Ctx → Option Node} {pos : Pos} {i : Nat} {env : NsMap}
    {anc : List QName} :
    ∀ (ks : List Node), (∀ c ∈ Node.walks pos i env anc ks, ∀ n, R c = some n → c.node.Each Q → n.Each Q') →
    (∀ c ∈ Node.walks pos i env anc ks, R c = none → Q c.e c.kids →
      Q' c.e (Node.substCtxs R c.pos 0 c.env (c.e.tag :: c.anc) c.kids)) →
    Node.Eachs Q ks → Node.Eachs Q' (Node.substCtxs R pos i env anc ks)
  | [], _, _, _ => by simp [Node.substCtxs, Node.Eachs]
  | k :: ks, hR, hK, h => by
    simp only [Node.substCtxs]
    exact ⟨each_substCtx k (fun c hc => hR c (by simp [Node.walks, hc])) (fun c hc => hK c (by simp [Node.walks, hc])) h.1,
      eachs_substCtxs ks (fun c hc => hR c (by simp [Node.walks, hc])) (fun c hc => hK c (by simp [Node.walks, hc])) h.2⟩
end

mutual
theorem each_pruneCtx {Q : Elem → List Node → Prop} {S : Ctx → Bool} {pos : Pos} {env : NsMap} {anc : List QName} :
    ∀ (t : Node), (∀ c ∈ t.walk pos env anc, Q c.e c.kids →
      Q c.e (Node.pruneCtxs S c.pos 0 c.env (c.e.tag :: c.anc) c.kids)) →
    t.Each Q → (t.pruneCtx S pos env anc).Each Q
  | .other _ _, _, _ => by simp [Node.pruneCtx, Node.Each]
  | .elem e ks, hK, h => by
    simp only [Node.pruneCtx]
    exact ⟨hK ⟨pos, e.decls ++ env, anc, e, ks⟩ (by simp [Node.walk]) h.1,
      eachs_pruneCtxs ks (fun c hc => hK c (by simp [Node.walk, hc])) h.2⟩
theorem eachs_pruneCtxs {Q : Elem → List Node → Prop} {S : Ctx → Bool} {pos : Pos} {i : Nat} {env : NsMap}
    {anc : List QName} :
    ∀ (ks : List Node), (∀ c ∈ Node.walks pos i env anc ks, Q c.e c.kids →
      Q c.e (Node.pruneCtxs S c.pos 0 c.env (c.e.tag :: c.anc) c.kids)) →
    Node.Eachs Q ks → Node.Eachs Q (Node.pruneCtxs S pos i env anc ks)
  | [], _, _ => by simp [Node.pruneCtxs, Node.Eachs]
  | .other c t :: ks, hK, h => by
    simp only [Node.pruneCtxs]
    exact ⟨by simp [Node.Each], eachs_pruneCtxs ks (fun c hc => hK c (by simp [Node.walks, hc])) h.2⟩
  | .elem e es :: ks, hK, h => by
    simp only [Node.pruneCtxs]
    split
    · exact eachs_pruneCtxs ks (fun c hc => hK c (by simp [Node.walks, hc])) h.2
    · exact ⟨each_pruneCtx (.elem e es) (fun c hc => hK c (by simp [Node.walks, hc])) h.1,
        eachs_pruneCtxs ks (fun c hc => hK c (by simp [Node.walks, hc])) h.2⟩
end

mutual
theorem rel_mapCtx_env {P : Elem → Elem → Prop} {F : Ctx → Elem} (hF : ∀ c, (∃ env, c.env = c.e.decls ++ env) → P c.e (F c))
    (pos : Pos) (env : NsMap) (anc : List QName) : ∀ t : Node, Node.Rel P t (t.mapCtx F pos env anc)
  | .other _ _ => by simp only [Node.mapCtx, Node.Rel]; exact ⟨trivial, trivial⟩
  | .elem e ks => by
    simp only [Node.mapCtx, Node.Rel]
    exact ⟨hF ⟨pos, e.decls ++ env, anc, e, ks⟩ ⟨env, rfl⟩, rels_mapCtxs_env hF _ _ _ _ ks⟩
theorem rels_mapCtxs_env {P : Elem → Elem → Prop} {F : Ctx → Elem} (hF : ∀ c, (∃ env, c.env = c.e.decls ++ env) → P c.e (F c))
    (pos : Pos) (i : Nat)
    (env : NsMap) (anc : List QName) : ∀ ks : List Node, Node.Rels P ks (Node.mapCtxs F pos i env anc ks)
  | [] => by simp [Node.mapCtxs, Node.Rels]
  | k :: ks => by
    simp only [Node.mapCtxs, Node.Rels]
    exact ⟨rel_mapCtx_env hF _ _ _ k, rels_mapCtxs_env hF _ _ _ _ ks⟩
end

mutual
theorem rel_mapPos {P : Elem → Elem → Prop} {f : Pos → Elem → Elem} (hf : ∀ q e, P e (f q e)) (pos : Pos) : ∀ t : Node,
    Node.Rel P t (t.mapPos f pos)
  | .other _ _ => by simp only [Node.mapPos, Node.Rel]; exact ⟨trivial, trivial⟩
  | .elem e ks => by
    simp only [Node.mapPos, Node.Rel]
    exact ⟨hf _ _, rels_mapPoss hf _ _ ks⟩
theorem rels_mapPoss {P : Elem → Elem → Prop} {f : Pos → Elem → Elem} (hf : ∀ q e, P e (f q e)) (pos : Pos) (i : Nat) :
    ∀ ks : List Node, Node.Rels P ks (Node.mapPoss f pos i ks)
  | [] => by simp [Node.mapPoss, Node.Rels]
  | k :: ks => by
    simp only [Node.mapPoss, Node.Rels]
    exact ⟨rel_mapPos hf _ k, rels_mapPoss hf _ _ ks⟩
end

/-! ## Helpers: sound documents -/

/-- An element that can be processed, together with its children. -/
def Usable (checks : Bool) (ps : List String) (tags : List QName) (e : Elem) (ks : List Node) : Prop :=
  ElemFine checks ps e ∧ OnlyElements e ks ∧ HoldsValue tags e ks

/-- A document that can be processed; `tags` are the headers whose values are still needed. -/
def Sound (checks : Bool) (ps : List String) (tags : List QName) (t : Node) : Prop :=
  RootBinds ps t ∧ t.Each (Usable checks ps tags)

theorem sound_of {checks : Bool} {ps : List String} {t : Node} (h : InOrder checks ps t) (hv : HasValues t) :
    Sound checks ps uriHolders t :=
  ⟨h.root, each_elems.2 (fun c hc => ⟨h.elems c hc, h.contributors c hc, hv c hc⟩)⟩

theorem sound_of' {checks : Bool} {ps : List String} {t : Node} (h : InOrder checks ps t) : Sound checks ps [] t :=
  ⟨h.root, each_elems.2 (fun c hc => ⟨h.elems c hc, h.contributors c hc, fun h => by cases h⟩)⟩

theorem rels_other {P : Elem → Elem → Prop} : ∀ {a b : List Node}, Node.Rels P a b → ∀ k' ∈ b, ∃ k ∈ a, Node.Rel P k k'
  | [], [], _, _, h => by simp at h
  | k :: _, _ :: _, hr, k', h => by
    simp only [Node.Rels] at hr
    rcases List.mem_cons.1 h with rfl | h
    · exact ⟨k, by simp, hr.1⟩
    · obtain ⟨k2, h1, h2⟩ := rels_other hr.2 k' h
      exact ⟨k2, by simp [h1], h2⟩
  | [], _ :: _, h, _, _ => by simp only [Node.Rels] at h
  | _ :: _, [], h, _, _ => by simp only [Node.Rels] at h

theorem rels_fwd {P : Elem → Elem → Prop} : ∀ {a b : List Node}, Node.Rels P a b → ∀ {e ks}, Node.elem e ks ∈ a →
    ∃ e' ks', Node.elem e' ks' ∈ b ∧ P e e'
  | [], [], _, _, _, h => by simp at h
  | .elem _ _ :: _, .elem e' ks' :: _, hr, e, ks, h => by
    simp only [Node.Rels, Node.Rel] at hr
    rcases List.mem_cons.1 h with h | h
    · cases h; exact ⟨e', ks', by simp, hr.1.1⟩
    · obtain ⟨e2, ks2, h1, h2⟩ := rels_fwd hr.2 h
      exact ⟨e2, ks2, by simp [h1], h2⟩
  | .other _ _ :: _, .other _ _ :: _, hr, e, ks, h => by
    simp only [Node.Rels] at hr
    rcases List.mem_cons.1 h with h | h
    · cases h
    · obtain ⟨e2, ks2, h1, h2⟩ := rels_fwd hr.2 h
      exact ⟨e2, ks2, by simp [h1], h2⟩
  | .elem _ _ :: _, .other _ _ :: _, hr, _, _, _ => by simp only [Node.Rels, Node.Rel] at hr; exact hr.1.elim
  | .other _ _ :: _, .elem _ _ :: _, hr, _, _, _ => by simp only [Node.Rels, Node.Rel] at hr; exact hr.1.elim
  | [], _ :: _, h, _, _, _ => by simp only [Node.Rels] at h
  | _ :: _, [], h, _, _, _ => by simp only [Node.Rels] at h

theorem good_rel {checks : Bool} {ps : List String} {tags : List QName} (ht : ∀ X ∈ tags, X ∈ uriHolders) {e e' : Elem}
    {ks ks' : List Node} (h : Gentle checks ps e e') (hr : Node.Rels (Gentle checks ps) ks ks') (hg : Usable checks ps tags e ks) :
    Usable checks ps tags e' ks' := by
  refine ⟨h.fine hg.1, fun hc k' hk' => ?_, fun hc => ?_⟩
  · obtain ⟨k, hk, hrel⟩ := rels_other hr k' hk'
    obtain ⟨e1, ks1, rfl⟩ := hg.2.1 ((h.tags _ (by simp)).1 hc) k hk
    cases k' with
    | elem e2 ks2 => exact ⟨e2, ks2, rfl⟩
    | other _ _ => simp only [Node.Rel] at hrel
  · have : e.tag ∈ tags := by rw [← (h.tags e'.tag (by simp [ht _ hc])).1 rfl] at hc; exact hc
    obtain ⟨e1, ks1, h1, h2, h3⟩ := hg.2.2 this
    obtain ⟨e2, ks2, h4, h5⟩ := rels_fwd hr h1
    exact ⟨e2, ks2, h4, (h5.tags _ (by simp)).2 h2, h5.untyped h3⟩

theorem sound_rel {checks : Bool} {ps : List String} {tags : List QName} (ht : ∀ X ∈ tags, X ∈ uriHolders) {t t' : Node}
    (hr : Node.Rel (Gentle checks ps) t t') (h : Sound checks ps tags t) : Sound checks ps tags t' := by
  refine ⟨?_, each_rel (Q := Usable checks ps tags) (Q' := Usable checks ps tags) (fun _ _ _ _ h1 h2 h3 => good_rel ht h1 h2 h3) hr h.2⟩
  obtain ⟨e, ks, rfl, hd⟩ := h.1
  cases t' with
  | elem e' ks' =>
    simp only [Node.Rel] at hr
    exact ⟨e', ks', rfl, fun p hp => hr.1.decls _ (hd p hp)⟩
  | other _ _ => simp only [Node.Rel] at hr

theorem sound_edit {checks : Bool} {ps : List String} {tags : List QName} (ht : ∀ X ∈ tags, X ∈ uriHolders) {t : Node}
    {F : Ctx → Elem} (hF : ∀ c, (∃ env, c.env = c.e.decls ++ env) → Gentle checks ps c.e (F c)) (h : Sound checks ps tags t) :
    Sound checks ps tags (t.edit F) := sound_rel ht (rel_mapCtx_env hF _ _ _ t) h

theorem pruned_elem {S : Ctx → Bool} {pos : Pos} {env : NsMap} {anc : List QName} : ∀ {ks : List Node} {i : Nat},
    ∀ k ∈ Node.pruneCtxs S pos i env anc ks, (∀ x ∈ ks, ∃ e es, x = Node.elem e es) → ∃ e es, k = Node.elem e es
  | [], _, k, hk, _ => by simp [Node.pruneCtxs] at hk
  | .other c t :: ks, i, k, hk, h => by
    obtain ⟨_, _, h⟩ := h _ (List.mem_cons_self ..)
    cases h
  | .elem e es :: ks, i, k, hk, h => by
    simp only [Node.pruneCtxs] at hk
    split at hk
    · exact pruned_elem k hk (fun x hx => h x (by simp [hx]))
    · rcases List.mem_cons.1 hk with rfl | hk
      · exact ⟨e, _, by simp only [Node.pruneCtx]; rfl⟩
      · exact pruned_elem k hk (fun x hx => h x (by simp [hx]))

theorem pruned_keeps {S : Ctx → Bool} {pos : Pos} {env : NsMap} {anc : List QName} {e : Elem} {es : List Node} :
    ∀ {ks : List Node} {i j : Nat}, ks[j]? = some (.elem e es) → S ⟨(i + j) :: pos, e.decls ++ env, anc, e, es⟩ = false →
    ∃ es', Node.elem e es' ∈ Node.pruneCtxs S pos i env anc ks
  | [], _, _, h, _ => by simp at h
  | k :: ks, i, 0, h, hs => by
    simp only [List.getElem?_cons_zero, Option.some.injEq] at h
    subst h
    simp only [Node.pruneCtxs, Nat.add_zero] at hs ⊢
    rw [hs]
    exact ⟨_, by simp only [Node.pruneCtx, Bool.false_eq_true, if_false]; exact List.mem_cons_self ..⟩
  | .other c t :: ks, i, j + 1, h, hs => by
    simp only [List.getElem?_cons_succ] at h
    rw [show i + (j + 1) = (i + 1) + j from by omega] at hs
    obtain ⟨es', h'⟩ := pruned_keeps h hs
    exact ⟨es', by simp [Node.pruneCtxs, h']⟩
  | .elem e0 es0 :: ks, i, j + 1, h, hs => by
    simp only [List.getElem?_cons_succ] at h
    rw [show i + (j + 1) = (i + 1) + j from by omega] at hs
    obtain ⟨es', h'⟩ := pruned_keeps h hs
    refine ⟨es', ?_⟩
    simp only [Node.pruneCtxs]
    split
    · exact h'
    · exact List.mem_cons_of_mem _ h'

theorem root_without {S : Ctx → Bool} {t : Node} {ps : List String} (h : RootBinds ps t) : RootBinds ps (t.without S) := by
  obtain ⟨e, ks, rfl, hd⟩ := h
  exact ⟨e, _, by simp only [Node.pruneCtx]; rfl, hd⟩

theorem sound_without {checks : Bool} {ps : List String} {tags : List QName} {t : Node} {S : Ctx → Bool}
    (hS : tags = [] ∨ ∀ c ∈ t.elems, S c = true → c.e.tag = uriValueTag → c.e.get? xsiTypeAttr ≠ none)
    (h : Sound checks ps tags t) : Sound checks ps tags (t.without S) := by
  refine ⟨root_without h.1, each_pruneCtx t (fun c hc hg => ⟨hg.1, fun hk k hm => ?_, fun hk => ?_⟩) h.2⟩
  · exact pruned_elem k hm (hg.2.1 hk)
  · rcases hS with rfl | hS
    · cases hk
    · obtain ⟨e', ks', h1, h2, h3⟩ := hg.2.2 hk
      obtain ⟨j, hj⟩ := List.getElem?_of_mem h1
      have hm := walk_child t c hc j e' ks' hj
      have hf : S ⟨(0 + j) :: c.pos, e'.decls ++ c.env, c.e.tag :: c.anc, e', ks'⟩ = false := by
        rw [Nat.zero_add, Bool.eq_false_iff]
        exact fun hs => hS _ hm hs h2 h3
      obtain ⟨es', hes⟩ := pruned_keeps hj hf
      exact ⟨e', es', hes, h2, h3⟩

theorem subst_elem {R : Ctx → Option Node} {pos : Pos} {env : NsMap} {anc : List QName} :
    ∀ {ks : List Node} {i : Nat}, (∀ x ∈ ks, ∃ e es, x = Node.elem e es) →
    (∀ j e es, ks[j]? = some (.elem e es) → ∀ n, R ⟨(i + j) :: pos, e.decls ++ env, anc, e, es⟩ = some n → ∃ e' es', n = .elem e' es') →
    ∀ k ∈ Node.substCtxs R pos i env anc ks, ∃ e es, k = Node.elem e es
  | [], _, _, _, k, hk => by simp [Node.substCtxs] at hk
  | x :: ks, i, h, hR, k, hk => by
    obtain ⟨e, es, rfl⟩ := h x (List.mem_cons_self ..)
    simp only [Node.substCtxs, List.mem_cons] at hk
    rcases hk with rfl | hk
    · simp only [Node.substCtx]
      split
      · next n hn => exact hR 0 e es (by simp) n hn
      · exact ⟨_, _, rfl⟩
    · refine subst_elem (fun x hx => h x (by simp [hx])) (fun j e es hj n hn => ?_) k hk
      exact hR (j + 1) e es (by simpa using hj) n (by rw [show i + (j + 1) = (i + 1) + j from by omega]; exact hn)

theorem subst_keeps {R : Ctx → Option Node} {pos : Pos} {env : NsMap} {anc : List QName} {e : Elem} {es : List Node} :
    ∀ {ks : List Node} {i j : Nat}, ks[j]? = some (.elem e es) → R ⟨(i + j) :: pos, e.decls ++ env, anc, e, es⟩ = none →
    ∃ es', Node.elem e es' ∈ Node.substCtxs R pos i env anc ks
  | [], _, _, h, _ => by simp at h
  | k :: ks, i, 0, h, hs => by
    simp only [List.getElem?_cons_zero, Option.some.injEq] at h
    subst h
    simp only [Node.substCtxs, Node.substCtx, Nat.add_zero] at hs ⊢
    rw [hs]
    exact ⟨_, List.mem_cons_self ..⟩
  | k :: ks, i, j + 1, h, hs => by
    simp only [List.getElem?_cons_succ] at h
    rw [show i + (j + 1) = (i + 1) + j from by omega] at hs
    obtain ⟨es', h'⟩ := subst_keeps h hs
    exact ⟨es', by simp [Node.substCtxs, h']⟩

/-- Replacing elements by good ones. -/
theorem sound_replaced {checks : Bool} {ps : List String} {tags tags' : List QName} {Sel : Ctx → Prop} {Q : Ctx → Node → Prop}
    {t t' : Node} (hr : Replaced Sel Q t t') (ht : ∀ X ∈ tags', X ∈ tags)
    (hv : tags' = [] ∨ ∀ c ∈ t.elems, c.e.tag = uriValueTag → ¬ Sel c)
    (hn : ∀ c ∈ t.elems, ∀ n, Sel c → Q c n → c.node.Each (Usable checks ps tags) →
      (∃ e ks, n = .elem e ks) ∧ n.Each (Usable checks ps tags'))
    (h : Sound checks ps tags t) : Sound checks ps tags' t' := by
  have hrt := hr.root
  obtain ⟨R, h1, h2, rfl⟩ := hr
  have hR : ∀ c ∈ t.elems, ∀ n, R c = some n → Sel c ∧ Q c n := by
    intro c hc n hn'
    rcases Classical.em (Sel c) with hs | hs
    · obtain ⟨n', h3, h4⟩ := h1 c hc hs
      rw [hn'] at h3; cases h3
      exact ⟨hs, h4⟩
    · rw [h2 c hc hs] at hn'; cases hn'
  have hE := h.2
  refine ⟨?_, each_substCtx t (fun c hc n hm hg => ?_) (fun c hc hm hg => ⟨hg.1, fun hk => ?_, fun hk => ?_⟩) h.2⟩
  · obtain ⟨e, ks, rfl, hd⟩ := h.1
    exact ⟨e, _, by simp only [Node.substCtx, List.isEmpty_nil, if_true]; rfl, hd⟩
  · split at hm
    · cases hm
    · obtain ⟨hs, hq⟩ := hR c hc n hm
      exact (hn c hc n hs hq hg).2
  · refine subst_elem (hg.2.1 hk) (fun j e es hj n hm => ?_)
    rw [Nat.zero_add] at hm
    have hmem := walk_child t c hc j e es hj
    simp only [List.isEmpty_cons, Bool.false_eq_true, if_false] at hm
    obtain ⟨hs, hq⟩ := hR _ hmem n hm
    exact (hn _ hmem n hs hq (each_of_walk t hE _ hmem)).1
  · rcases hv with rfl | hv
    · cases hk
    · obtain ⟨e', ks', h3, h4, h5⟩ := hg.2.2 (ht _ hk)
      obtain ⟨j, hj⟩ := List.getElem?_of_mem h3
      have hmem := walk_child t c hc j e' ks' hj
      obtain ⟨es', hes⟩ := subst_keeps (R := fun c => if c.anc.isEmpty then none else R c) (pos := c.pos) (env := c.env)
        (anc := c.e.tag :: c.anc) (i := 0) hj (by
          rw [Nat.zero_add]
          simp only [List.isEmpty_cons, Bool.false_eq_true, if_false]
          exact h2 _ hmem (hv _ hmem h4))
      exact ⟨e', es', hes, h4, h5⟩

/-! ## Helpers: searching -/

mutual
theorem walk_env {p : Option String} {pos : Pos} {env : NsMap} {anc : List QName} (hp : NsMap.get? env p ≠ none) : ∀ (t : Node),
    ∀ c ∈ t.walk pos env anc, NsMap.get? c.env p ≠ none
  | .other _ _, c, hc => by simp [Node.walk] at hc
  | .elem e ks, c, hc => by
    simp only [Node.walk, List.mem_cons] at hc
    rcases hc with rfl | hc
    · exact nsMap_right _ _ _ hp
    · exact walks_env (nsMap_right _ _ _ hp) ks c hc
theorem walks_env {p : Option String} {pos : Pos} {i : Nat} {env : NsMap} {anc : List QName} (hp : NsMap.get? env p ≠ none) :
    ∀ (ks : List Node), ∀ c ∈ Node.walks pos i env anc ks, NsMap.get? c.env p ≠ none
  | [], c, hc => by simp [Node.walks] at hc
  | k :: ks, c, hc => by
    simp only [Node.walks, List.mem_append] at hc
    rcases hc with hc | hc
    · exact walk_env hp k c hc
    · exact walks_env hp ks c hc
end

theorem elems_env {ps : List String} {t : Node} (h : RootBinds ps t) : ∀ c ∈ t.elems, ∀ p ∈ ps,
    NsMap.get? c.env (some p) ≠ none := by
  obtain ⟨e, ks, rfl, hd⟩ := h
  intro c hc p hp
  simp only [Node.elems, Node.walk, List.mem_cons] at hc
  rcases hc with rfl | hc
  · exact nsMap_left _ _ _ (hd p hp)
  · exact walks_env (nsMap_left _ _ _ (hd p hp)) ks c hc

theorem sound_wellTyped {checks : Bool} {ps : List String} {tags : List QName} {t : Node} (h : Sound checks ps tags t) :
    WellTyped t := by
  intro c hc _ hg
  obtain ⟨v, hv⟩ := Option.ne_none_iff_exists'.1 hg
  obtain ⟨p, ty, hq, hp⟩ := ((each_elems.1 h.2 c hc).1.attrs _ (mem_of_get? hv)).1 rfl
  obtain ⟨ns, hn⟩ := Option.ne_none_iff_exists'.1 (elems_env h.1 c hc p hp)
  exact ⟨p, ty, ns, v, hv, hq, hn⟩

theorem vocab_total {checks : Bool} {ps : List String} {tags : List QName} (ht : ∀ X ∈ tags, X ∈ uriHolders) {v : Vocab}
    (hv : VocabFine v) {t : Node} (h : Sound checks ps tags t) : ∃ t', v.update t = .ok t' ∧ Sound checks ps tags t' := by
  obtain ⟨t', h'⟩ := vocabUpdate_total (v := v)
    (row := ⟨v.ns, v.oldTypes, v.newType, v.reference.getD "", v.name, v.terms⟩)
    ⟨rfl, rfl, rfl, rfl, rfl, by cases v.reference <;> simp⟩ (sound_wellTyped h) (by
      intro hr c hc p ho
      obtain ⟨_, ty, hty, s, hs, hq, _⟩ := ho
      cases hg : c.e.get? (.plain "vocab_reference") with
      | none => rfl
      | some r =>
        exact absurd (hv.1 hr ty hty) ((each_elems.1 h.2 c hc).1.refs _ (mem_of_get? hg) rfl _ (mem_of_get? hs) rfl p ty hq))
  refine ⟨t', h', ?_⟩
  rw [(vocabUpdate_eq h').1]
  exact sound_edit ht (fun c _ => gentle_vocab hv c) h

theorem vocabs_total {checks : Bool} {ps : List String} {tags : List QName} (ht : ∀ X ∈ tags, X ∈ uriHolders) :
    ∀ {vs : List Vocab}, (∀ v ∈ vs, VocabFine v) → ∀ {t : Node}, Sound checks ps tags t →
    ∃ t', updateVocabs vs t = .ok t' ∧ Sound checks ps tags t'
  | [], _, t, h => ⟨t, rfl, h⟩
  | v :: vs, hv, t, h => by
    obtain ⟨t1, h1, h2⟩ := vocab_total ht (hv v (by simp)) h
    obtain ⟨t2, h3, h4⟩ := vocabs_total ht (vs := vs) (fun v hm => hv v (by simp [hm])) h2
    refine ⟨t2, ?_, h4⟩
    simp only [updateVocabs, foldE, h1] at h3 ⊢
    exact h3

theorem vocabsIf_total {checks : Bool} {ps : List String} {tags : List QName} (ht : ∀ X ∈ tags, X ∈ uriHolders) {vs : List Vocab}
    (hv : ∀ v ∈ vs, VocabFine v) (b : Bool) {t : Node} (h : Sound checks ps tags t) :
    ∃ t', (if b then updateVocabs vs t else .ok t) = .ok t' ∧ Sound checks ps tags t' := by
  cases b with
  | false => exact ⟨t, rfl, h⟩
  | true => simpa using vocabs_total ht hv h

theorem find_total (f : Finder) {t : Node} (ht : WellTyped t) : ∃ l, f.find t = .ok l := by
  obtain ⟨r, hr⟩ := filterE_ok (p := f.isContext) (l := getTypedNodes t) (fun c hc => by
    obtain ⟨p, ty, ns, h⟩ := typedNodes_wellTyped ht c hc
    exact ⟨_, isContext_typed h⟩)
  obtain ⟨cs, hc⟩ : ∃ cs, f.contexts t = .ok cs := by
    unfold Finder.contexts
    split
    · exact ⟨_, rfl⟩
    · exact ⟨r, hr⟩
  unfold Finder.find
  rw [hc]
  exact ⟨_, rfl⟩

theorem optionals_total {checks : Bool} {ps : List String} : ∀ (fs : List Finder) {t : Node}, Sound checks ps [] t →
    ∃ t', removeOptionals fs t = .ok t' ∧ Sound checks ps [] t'
  | [], t, h => ⟨t, rfl, h⟩
  | f :: fs, t, h => by
    obtain ⟨l, hl⟩ := find_total f (sound_wellTyped h)
    obtain ⟨t2, h1, h2⟩ := optionals_total fs (t := t.removeAll (l.map (·.pos))) (by
      rw [removeAll_without]; exact sound_without (Or.inl rfl) h)
    refine ⟨t2, ?_, h2⟩
    simp only [removeOptionals, foldE, hl] at h1 ⊢
    exact h1

theorem optionalsIf_total {checks : Bool} {ps : List String} (fs : List Finder) (b : Bool) {t : Node} (h : Sound checks ps [] t) :
    ∃ t', (if b then removeOptionals fs t else .ok t) = .ok t' ∧ Sound checks ps [] t' := by
  cases b with
  | false => exact ⟨t, rfl, h⟩
  | true => simpa using optionals_total fs h

/-! ## Helpers: new elements -/

/-- Names without a role in the conditions. -/
def specialTags : List QName := contributorsTag :: uriValueTag :: uriHolders ++ sourceTags

theorem good_node {checks : Bool} {ps : List String} {tags : List QName} (ht : ∀ X ∈ tags, X ∈ uriHolders) {e : Elem}
    {ks : List Node} (hf : ∀ a ∈ e.attrs, AttrFine checks ps a)
    (hr : ∀ a ∈ e.attrs, a.1 = ⟨none, "vocab_reference"⟩ → ∀ b ∈ e.attrs, b.1 = xsiTypeAttr →
      ∀ p ty, IsQType b.2 p ty → ty ∉ brokenTypes)
    (htag : e.tag ∉ specialTags) (hk : ∀ k ∈ ks, k.Each (Usable checks ps tags)) :
    (Node.elem e ks).Each (Usable checks ps tags) := by
  unfold specialTags at htag
  simp only [List.mem_append, List.mem_cons, not_or] at htag
  exact ⟨⟨⟨hf, hr, fun h => absurd h htag.2⟩, fun h => absurd h htag.1.1, fun h => absurd (ht _ h) htag.1.2.2⟩, eachs_mem.2 hk⟩

theorem good_new {checks : Bool} {ps : List String} {tags : List QName} (ht : ∀ X ∈ tags, X ∈ uriHolders) {e : Elem}
    {ks : List Node} (ha : e.attrs = []) (hx : ∀ s, e.text = some s → ∀ ch ∈ s.toList, ch ∉ ['<', '>', '&', '\r'])
    (h1 : e.tag ≠ contributorsTag) (h2 : e.tag ∉ uriHolders) (hk : ∀ k ∈ ks, k.Each (Usable checks ps tags)) :
    (Node.elem e ks).Each (Usable checks ps tags) := by
  refine ⟨⟨⟨?_, ?_, fun _ => hx⟩, fun h => absurd h h1, fun h => absurd (ht _ h) h2⟩, eachs_mem.2 hk⟩
  · rw [ha]; intro a h; cases h
  · rw [ha]; intro a h; cases h

theorem good_retag {checks : Bool} {ps : List String} {tags : List QName} (ht : ∀ X ∈ tags, X ∈ uriHolders) {e : Elem}
    {ks : List Node} {tag : QName} (h : tag ∉ specialTags) (hg : (Node.elem e ks).Each (Usable checks ps tags)) :
    (copyRetag tag e ks).Each (Usable checks ps tags) :=
  good_node (e := { e with tag := tag }) ht hg.1.1.attrs hg.1.1.refs h (eachs_mem.1 hg.2)

theorem each_kid {Q : Elem → List Node → Prop} {e : Elem} {ks : List Node} (h : (Node.elem e ks).Each Q) {k : Node} (hk : k ∈ ks) :
    k.Each Q := eachs_mem.1 h.2 k hk

theorem fewer {checks : Bool} {ps : List String} {tags : List QName} {t : Node} (h : Sound checks ps tags t) : Sound checks ps [] t :=
  ⟨h.1, each_elems.2 (fun c hc => let g := each_elems.1 h.2 c hc; ⟨g.1, g.2.1, fun h => by cases h⟩)⟩

theorem no_tags : ∀ X ∈ ([] : List QName), X ∈ uriHolders := fun _ h => by cases h

/-! ### CybOX fields -/

theorem find_child_some {c : Ctx} {q : Elem → Bool} : ∀ {l : List Node} {n : Nat} {e : Elem} {es : List Node}, Node.elem e es ∈ l →
    q e = true → ∃ k, (childCtxs c n l).find? (fun k => q k.e) = some k
  | [], _, _, _, h, _ => by cases h
  | .other a b :: l, n, e, es, h, hq => by
    simp only [childCtxs]
    exact find_child_some (by simpa using h) hq
  | .elem e0 es0 :: l, n, e, es, h, hq => by
    simp only [childCtxs, List.find?_cons]
    split
    · exact ⟨_, rfl⟩
    · next hf =>
      rcases List.mem_cons.1 h with h | h
      · cases h; rw [hf] at hq; cases hq
      · exact find_child_some h hq

theorem value_total {checks : Bool} {ps : List String} {tags tags' : List QName} {n : String} {X : QName}
    (hX : XName.resolve Tables.cybox201_nsmap ⟨"HTTPSessionObj", n⟩ = X) (h1 : X ∈ tags) (h2 : X ∉ tags')
    (h3 : ∀ Y ∈ tags', Y ∈ tags) (h4 : X ∉ contributorsTag :: uriValueTag :: sourceTags) {t : Node} (h : Sound checks ps tags t) :
    ∃ t', (⟨[rel "HTTPSessionObj" n], Tables.cybox201_nsmap, .value (some ⟨"URIObj", "Value"⟩) none true []⟩ : Trans).translate t
      = .ok t' ∧ Sound checks ps tags' t' := by
  simp only [List.mem_cons, not_or] at h4
  have hV : XName.resolve Tables.cybox201_nsmap ⟨"URIObj", "Value"⟩ = uriValueTag := by decide +kernel
  rw [translate_value_eq]
  have key : ∀ c ∈ t.elems, [rel "HTTPSessionObj" n].any (fun a => a.selects Tables.cybox201_nsmap c) = true →
      ∃ k, valueNode Tables.cybox201_nsmap (some ⟨"URIObj", "Value"⟩) c = .ok k := by
    intro c hc hs
    rw [rel_selects, hX] at hs
    obtain ⟨e', ks', k1, k2, _⟩ := (each_elems.1 h.2 c hc).2.2 (by rw [hs.2]; exact h1)
    obtain ⟨k, hk⟩ := find_child_some (c := c) (n := 0) (q := fun e => decide (e.tag = uriValueTag)) k1 (decide_eq_true k2)
    exact ⟨k.e, by simp only [valueNode, hV, hk]⟩
  obtain ⟨t', ht'⟩ := translate_custom_ok (alts := [rel "HTTPSessionObj" n]) (m := Tables.cybox201_nsmap)
    (g := translateValue Tables.cybox201_nsmap (some ⟨"URIObj", "Value"⟩) none true []) (t := t) (by
      intro c hc hs
      obtain ⟨k, hk⟩ := key c hc hs
      exact ⟨_, by unfold translateValue; rw [hk]⟩)
  refine ⟨t', ht', sound_replaced (tags := tags) (translate_custom ht') h3 (Or.inr ?_) ?_ h⟩
  · intro c _ hu hs
    rw [rel_selects, hX] at hs
    exact h4.2.1 (hs.2.symm.trans hu)
  · intro c hc nn hs hn hg
    rw [rel_selects, hX] at hs
    unfold translateValue valueNode at hn
    simp only at hn
    cases hf : (childCtxs c 0 c.kids).find? (fun k => decide (k.e.tag = XName.resolve Tables.cybox201_nsmap ⟨"URIObj", "Value"⟩)) with
    | none => rw [hf] at hn; cases hn
    | some k =>
      rw [hf] at hn
      simp only [Except.ok.injEq] at hn
      obtain ⟨i, j1, _, _⟩ := find_childCtxs (p := fun e => decide (e.tag = XName.resolve Tables.cybox201_nsmap ⟨"URIObj", "Value"⟩)) hf
      have hk := (each_kid hg (List.mem_of_getElem? j1)).1.1
      subst hn
      have hm : ∀ a ∈ Attrs.updateAll [] k.e.attrs, a ∈ k.e.attrs := fun a ha =>
        (mem_updateAll ha).elim (fun h => by cases h) id
      refine ⟨⟨_, _, rfl⟩, ⟨⟨fun a ha => hk.attrs a (hm a ha), fun a ha ka b hb kb => hk.refs a (hm a ha) ka b (hm b hb) kb,
        fun ht => ?_⟩, fun ht => ?_, fun ht => ?_⟩, by simp [Node.Eachs]⟩
      · exact absurd (show c.e.tag ∈ sourceTags from ht) (by rw [hs.2]; exact h4.2.2)
      · exact absurd (show c.e.tag = contributorsTag from ht) (by rw [hs.2]; exact h4.1)
      · exact absurd (show c.e.tag ∈ tags' from ht) (by rw [hs.2]; exact h2)

theorem refresh_total {checks : Bool} {ps : List String} {t : Node} (h : Sound checks ps [] t) :
    ∃ t', transRefresh.translate t = .ok t' ∧ Sound checks ps [] t' := by
  unfold transRefresh
  rw [translate_value_eq]
  obtain ⟨t', ht'⟩ := translate_custom_ok (alts := [rel "HTTPSessionObj" "Refresh"]) (m := Tables.cybox201_nsmap)
    (g := translateValue Tables.cybox201_nsmap none none true [(.plain "datatype", "string")]) (t := t)
    (fun c hc hs => ⟨_, rfl⟩)
  refine ⟨t', ht', sound_replaced (translate_custom ht') (fun _ h => h) (Or.inl rfl) ?_ h⟩
  intro c hc n hs hn hg
  have hr : XName.resolve Tables.cybox201_nsmap ⟨"HTTPSessionObj", "Refresh"⟩ =
    ⟨some "http://cybox.mitre.org/objects#HTTPSessionObject-2", "Refresh"⟩ := by decide +kernel
  rw [rel_selects, hr] at hs
  simp only [translateValue, valueNode, Except.ok.injEq] at hn
  subst hn
  have hm : ∀ a ∈ overrideAttrs c.e [(.plain "datatype", "string")] (Attrs.updateAll [] c.e.attrs),
      a ∈ c.e.attrs ∨ a = (.plain "datatype", "string") := by
    intro a ha
    simp only [overrideAttrs] at ha
    split at ha
    · rcases mem_set ha with ha | ha
      · exact Or.inl ((mem_updateAll ha).elim (fun h => by cases h) id)
      · exact Or.inr ha
    · exact Or.inl ((mem_updateAll ha).elim (fun h => by cases h) id)
  have hd : Harmless checks ps (.plain "datatype", "string") := harmless_of (by decide)
  refine ⟨⟨_, _, rfl⟩, good_node no_tags (fun a ha => ?_) (fun a ha ka b hb kb => ?_) ?_ (by simp)⟩
  · rcases hm a ha with ha | rfl
    · exact hg.1.1.attrs a ha
    · exact hd.1
  · rcases hm a ha with ha | rfl
    · rcases hm b hb with hb | rfl
      · exact hg.1.1.refs a ha ka b hb kb
      · exact absurd kb hd.2.1
    · exact absurd ka hd.2.2
  · show c.e.tag ∉ _
    rw [hs.2]; decide

theorem renamed_total {checks : Bool} {ps : List String} {tags : List QName} (ht : ∀ X ∈ tags, X ∈ uriHolders) {p n : String}
    {m : List (String × String)} {tag : QName} (h1 : XName.resolve m ⟨p, n⟩ ∉ specialTags) (h2 : tag ∉ specialTags) {t : Node}
    (h : Sound checks ps tags t) :
    ∃ t', (⟨[rel p n], m, .renamed tag⟩ : Trans).translate t = .ok t' ∧ Sound checks ps tags t' := by
  refine ⟨_, translate_renamed, sound_edit ht (fun c _ => ?_) h⟩
  unfold renBelow ren1
  split
  · exact .refl _ _ _
  · split
    · next he =>
      rw [show (c.e.tag = XName.resolve m ⟨p, n⟩) = (c.e.tag = XName.resolve m ⟨p, n⟩) from rfl] at he
      refine ⟨fun X hX => ?_, fun h => h, fun _ h => h, fun hf => fine_attrs hf (fun _ h => Or.inl h) (fun h => ?_)⟩
      · have hX' : X ∈ specialTags := List.mem_append_left _ hX
        exact ⟨fun (e : tag = X) => absurd hX' (e ▸ h2), fun e => absurd hX' (by rw [← e, he]; exact h1)⟩
      · exact absurd (List.mem_append_right _ h) h2
    · exact .refl _ _ _

theorem mailslot_total {checks : Bool} {ps : List String} {t : Node} (h : Sound checks ps [] t) :
    ∃ t', transMailslot.translate t = .ok t' ∧ Sound checks ps [] t' := by
  obtain ⟨t', ht'⟩ : ∃ t', transMailslot.translate t = .ok t' := by
    unfold transMailslot
    simp only [Trans.translate]
    obtain ⟨r, hr⟩ := mapE_total (f := fun c : Ctx => (Except.ok (copyRetag ⟨some nsWinMailslot, "Handle"⟩ c.e c.kids) : Except Err Node).map
      (fun n => (c.pos.tail, n))) (l := t.xpath Tables.cybox201_nsmap [relIn "WinMailslotObj" "Handle" "WinHandleObj" "Handle"])
      (fun c _ => ⟨_, rfl⟩)
    rw [hr]
    exact ⟨_, rfl⟩
  refine ⟨t', ht', sound_replaced (translate_parent ht') (fun _ h => h) (Or.inl rfl) ?_ h⟩
  rintro c hc n _ ⟨e, ks, hk, _, rfl⟩ hg
  exact ⟨⟨_, _, rfl⟩, good_retag no_tags (by decide) (each_kid hg hk)⟩

theorem foldE_cons_ok {α σ ε : Type} {f : σ → α → Except ε σ} {s s' : σ} {a : α} {as : List α} (h : f s a = .ok s') :
    foldE f s (a :: as) = foldE f s' as := by simp only [foldE, h]

theorem fields201_total {checks : Bool} {ps : List String} {t : Node} (h : Sound checks ps uriHolders t) :
    ∃ t', translateFields cybox201Translatable t = .ok t' ∧ Sound checks ps [] t' := by
  obtain ⟨t1, a1, b1⟩ := value_total (X := ⟨some "http://cybox.mitre.org/objects#HTTPSessionObject-2", "DNT"⟩) (n := "DNT")
    (tags' := [⟨some "http://cybox.mitre.org/objects#HTTPSessionObject-2", "Vary"⟩])
    (by decide +kernel) (by decide) (by decide) (by decide) (by decide) h
  obtain ⟨t2, a2, b2⟩ := value_total (X := ⟨some "http://cybox.mitre.org/objects#HTTPSessionObject-2", "Vary"⟩) (n := "Vary")
    (tags' := []) (by decide +kernel) (by decide) (by decide) (by decide) (by decide) b1
  obtain ⟨t3, a3, b3⟩ := refresh_total b2
  obtain ⟨t4, a4, b4⟩ := renamed_total (p := "HTTPSessionObj") (n := "X_Requested_For") (m := Tables.cybox201_nsmap)
    (tag := ⟨some nsHTTPSession, "X_Forwarded_For"⟩) no_tags (by decide +kernel) (by decide) b3
  obtain ⟨t5, a5, b5⟩ := renamed_total (p := "PacketObj") (n := "Authenication_Data") (m := Tables.cybox201_nsmap)
    (tag := ⟨some nsPacket, "Authentication_Data"⟩) no_tags (by decide +kernel) (by decide) b4
  obtain ⟨t6, a6, b6⟩ := renamed_total (p := "PacketObj") (n := "Excapsulating_Security_Payload") (m := Tables.cybox201_nsmap)
    (tag := ⟨some nsPacket, "Encapsulating_Security_Payload"⟩) no_tags (by decide +kernel) (by decide) b5
  obtain ⟨t7, a7, b7⟩ := renamed_total (p := "PacketObj") (n := "Protol_Addr_Size") (m := Tables.cybox201_nsmap)
    (tag := ⟨some nsPacket, "Proto_Addr_Size"⟩) no_tags (by decide +kernel) (by decide) b6
  obtain ⟨t8, a8, b8⟩ := mailslot_total b7
  refine ⟨t8, ?_, b8⟩
  unfold translateFields cybox201Translatable
  rw [foldE_cons_ok (s' := t1) a1, foldE_cons_ok (s' := t2) a2, foldE_cons_ok (s' := t3) a3, foldE_cons_ok (s' := t4) a4,
    foldE_cons_ok (s' := t5) a5, foldE_cons_ok (s' := t6) a6, foldE_cons_ok (s' := t7) a7, foldE_cons_ok (s' := t8) a8]
  rfl

/-! ### STIX fields -/

theorem contributors_total {checks : Bool} {ps : List String} {t : Node} (h : Sound checks ps [] t) :
    ∃ t', transContributors.translate t = .ok t' ∧ Sound checks ps [] t' := by
  have hr : XName.resolve Tables.stix101_nsmap ⟨"stixCommon", "Contributors"⟩ = contributorsTag := by decide +kernel
  obtain ⟨t', ht'⟩ := translate_custom_ok (alts := [rel "stixCommon" "Contributors"]) (m := Tables.stix101_nsmap)
    (g := translateContributors) (t := t) (by
      intro c hc hs
      rw [rel_selects, hr] at hs
      obtain ⟨r, hr⟩ := mapE_total (f := translateContributor) (l := c.kids) (fun k hk => by
        obtain ⟨e, ks, rfl⟩ := (each_elems.1 h.2 c hc).2.1 hs.2 k hk
        exact ⟨_, rfl⟩)
      exact ⟨_, by unfold translateContributors; rw [hr]⟩)
  refine ⟨t', ht', sound_replaced (translate_custom ht') (fun _ h => h) (Or.inl rfl) ?_ h⟩
  intro c hc n hs hn hg
  unfold translateContributors at hn
  split at hn
  · cases hn
  · next ks hks =>
    cases hn
    refine ⟨⟨_, _, rfl⟩, good_new no_tags rfl (fun _ h => by cases h) (by decide) (by decide) (fun k hk => ?_)⟩
    obtain ⟨x, hx, hxk⟩ := mapE_mem hks k hk
    cases x with
    | other _ _ => cases hxk
    | elem e es =>
      cases hxk
      refine good_new no_tags rfl (fun _ h => by cases h) (by decide) (by decide) (fun k' hk' => ?_)
      simp only [List.mem_singleton] at hk'
      subst hk'
      exact good_retag no_tags (by decide) (each_kid hg hx)

theorem exploitTargets_total {checks : Bool} {ps : List String} {t : Node} (h : Sound checks ps [] t) :
    ∃ t', transExploitTargets.translate t = .ok t' ∧ Sound checks ps [] t' := by
  obtain ⟨t', ht'⟩ := translate_custom_ok (alts := [relIn "ttp" "Exploit_Targets" "stixCommon" "Exploit_Target"])
    (m := Tables.stix101_nsmap) (g := wrapExploitTarget) (t := t) (fun c _ _ => ⟨_, rfl⟩)
  refine ⟨t', ht', sound_replaced (translate_custom ht') (fun _ h => h) (Or.inl rfl) ?_ h⟩
  intro c hc n hs hn hg
  cases hn
  refine ⟨⟨_, _, rfl⟩, good_new no_tags rfl (fun _ h => by cases h) (by decide) (by decide) (fun k hk => ?_)⟩
  simp only [List.mem_singleton] at hk
  subst hk
  exact hg

theorem fields101_total {checks : Bool} {ps : List String} (w : World) {t : Node} (h : Sound checks ps [] t) :
    ∃ t', translateFields (stix101Cls w).translatable t = .ok t' ∧ Sound checks ps [] t' := by
  obtain ⟨t1, a1, b1⟩ := contributors_total h
  obtain ⟨t2, a2, b2⟩ := exploitTargets_total b1
  refine ⟨t2, ?_, b2⟩
  show foldE (fun t f => Trans.translate f t) t [transContributors, transExploitTargets] = _
  rw [foldE_cons_ok (s' := t1) a1, foldE_cons_ok (s' := t2) a2]
  rfl

theorem format_plain {checks : Bool} {ps : List String} {e : Elem} (h : ElemFine checks ps e) (ht : e.tag ∈ sourceTags) :
    xmlPlain (formatText e.text) = true ∧ ∀ ch ∈ (formatText e.text).toList, ch ∉ ['<', '>', '&', '\r'] := by
  have key : ∀ ch ∈ (formatText e.text).toList, ch ∉ ['<', '>', '&', '\r'] := by
    cases hx : e.text with
    | none => decide
    | some s => exact h.sources ht s hx
  refine ⟨?_, key⟩
  unfold xmlPlain
  have hc : ∀ l : List Char, (∀ ch ∈ l, ch ≠ '>') → hasCdataEnd l = false := by
    intro l
    induction l with
    | nil => intro _; rfl
    | cons x xs ih =>
      intro hl
      unfold hasCdataEnd
      split
      · next h' => cases h'; exact absurd rfl (hl '>' (by simp))
      · next h' => cases h'; exact ih (fun ch hm => hl ch (by simp [hm]))
      · rfl
  rw [hc _ (fun ch hm e => key ch hm (by simp [e])), Bool.not_false, Bool.and_true, List.all_eq_true]
  intro ch hm
  have := key ch hm
  simp only [List.mem_cons, List.not_mem_nil, or_false, not_or] at this
  simp [this.1, this.2.2.1, this.2.2.2]

theorem good_source {checks : Bool} {ps : List String} {tag : QName} {d d' : NsMap} {s : String} (h1 : tag ≠ contributorsTag)
    (h2 : tag ∉ uriHolders) (hs : ∀ ch ∈ s.toList, ch ∉ ['<', '>', '&', '\r']) :
    (sourceNode tag d d' s).Each (Usable checks ps []) := by
  have key : ∀ x : String, (∀ ch ∈ x.toList, ch ∉ ['<', '>', '&', '\r']) → ∀ y, some x = some y →
      ∀ ch ∈ y.toList, ch ∉ ['<', '>', '&', '\r'] := fun x hx y e => by cases e; exact hx
  unfold sourceNode
  refine good_new no_tags rfl (key _ (by decide)) h1 h2 (fun k hk => ?_)
  simp only [List.mem_singleton] at hk
  subst hk
  refine good_new no_tags rfl (key _ (by decide)) (by show ¬ (QName.mk (some nsCommon) "Identity" = _); decide)
    (by show QName.mk (some nsCommon) "Identity" ∉ _; decide) (fun k hk => ?_)
  simp only [List.mem_singleton] at hk
  subst hk
  exact good_new no_tags rfl (key _ hs) (by show ¬ (QName.mk (some nsCommon) "Name" = _); decide)
    (by show QName.mk (some nsCommon) "Name" ∉ _; decide) (by simp)

theorem source_total {checks : Bool} {ps : List String} {alts : List XAlt} {m : List (String × String)} {tag : QName} {d d' : NsMap}
    {g : Ctx → Except Err Node} (hg : ∀ c, xmlPlain (formatText c.e.text) = true →
      g c = .ok (sourceNode tag d d' (formatText c.e.text))) (hs : ∀ a ∈ alts, a.tag.resolve m ∈ sourceTags)
    (h1 : tag ≠ contributorsTag) (h2 : tag ∉ uriHolders) {t : Node} (h : Sound checks ps [] t) :
    ∃ t', (⟨alts, m, .custom g⟩ : Trans).translate t = .ok t' ∧ Sound checks ps [] t' := by
  have hsel : ∀ c : Ctx, alts.any (fun a => a.selects m c) = true → c.e.tag ∈ sourceTags := by
    intro c hc
    obtain ⟨a, ha, hc⟩ := List.any_eq_true.1 hc
    unfold XAlt.selects at hc
    simp only [Bool.and_eq_true, decide_eq_true_eq] at hc
    rw [hc.1.1]; exact hs a ha
  obtain ⟨t', ht'⟩ := translate_custom_ok (alts := alts) (m := m) (g := g) (t := t) (fun c hc hc' =>
    ⟨_, hg c (format_plain (each_elems.1 h.2 c hc).1 (hsel c hc')).1⟩)
  refine ⟨t', ht', sound_replaced (translate_custom ht') (fun _ h => h) (Or.inl rfl) ?_ h⟩
  intro c hc n hc' hn hE
  have hf := format_plain hE.1.1 (hsel c hc')
  rw [hg c hf.1] at hn
  cases hn
  exact ⟨⟨_, _, rfl⟩, good_source h1 h2 hf.2⟩

theorem relatedCampaign_total {checks : Bool} {ps : List String} {t : Node} (h : Sound checks ps [] t) :
    ∃ t', transRelatedCampaign.translate t = .ok t' ∧ Sound checks ps [] t' := by
  obtain ⟨t', ht'⟩ := translate_custom_ok (alts := [relIn "indicator" "Related_Campaigns" "indicator" "Related_Campaign"])
    (m := Tables.stix11_nsmap) (g := wrapRelatedCampaign) (t := t) (fun c _ _ => ⟨_, rfl⟩)
  refine ⟨t', ht', sound_replaced (translate_custom ht') (fun _ h => h) (Or.inl rfl) ?_ h⟩
  intro c hc n hs hn hg
  cases hn
  refine ⟨⟨_, _, rfl⟩, good_new no_tags rfl (fun _ h => by cases h) (by decide) (by decide) (fun k hk => ?_)⟩
  simp only [List.mem_singleton] at hk
  subst hk
  exact good_retag no_tags (by decide) hg

theorem fields11_total {checks : Bool} {ps : List String} (w : World) {t : Node} (h : Sound checks ps [] t) :
    ∃ t', translateFields (stix11Cls w).translatable t = .ok t' ∧ Sound checks ps [] t' := by
  obtain ⟨t1, a1, b1⟩ := source_total (g := translateCommonSource w) (m := Tables.stix11_nsmap)
    (alts := sourceParents.map (fun p => relIn p.1 p.2 "stixCommon" "Source")) (tag := ⟨some nsCommon, "Source"⟩)
    (d := [(some "stixCommon", nsCommon)]) (d' := []) (fun c hc => by unfold translateCommonSource; simp only [hc, if_true])
    (by decide +kernel) (by decide) (by decide) h
  obtain ⟨t2, a2, b2⟩ := source_total (g := translateSightingSource w) (m := Tables.stix11_nsmap)
    (alts := [relIn "indicator" "Sighting" "indicator" "Source"]) (tag := ⟨some nsIndicator, "Source"⟩)
    (d := [(some "indicator", nsIndicator)]) (d' := [(some "stixCommon", nsCommon)])
    (fun c hc => by unfold translateSightingSource; simp only [hc, if_true])
    (by decide +kernel) (by decide) (by decide) b1
  obtain ⟨t3, a3, b3⟩ := relatedCampaign_total b2
  refine ⟨t3, ?_, b3⟩
  show foldE (fun t f => Trans.translate f t) t [transCommonSource w, transSightingsSource w, transRelatedCampaign] = _
  rw [foldE_cons_ok (s' := t1) a1, foldE_cons_ok (s' := t2) a2, foldE_cons_ok (s' := t3) a3]
  rfl

/-! ## Helpers: updates -/

theorem vocabs_20 (n : List (String × String)) (sel : List XAlt) : ∀ v ∈ (cybox20Cls n sel).vocabs, VocabFine v := by
  show ∀ v ∈ [eventTypeVocab], VocabFine v
  decide +kernel
theorem vocabs_201 (n : List (String × String)) (sel : List XAlt) : ∀ v ∈ (cybox201Cls n sel).vocabs, VocabFine v := by
  show ∀ v ∈ [objectRelationshipVocab, toolTypeVocab, actionNameVocab], VocabFine v
  decide +kernel
theorem vocabs_10 : ∀ v ∈ stix10Cls.vocabs, VocabFine v := by decide +kernel
theorem vocabs_101 (w : World) : ∀ v ∈ (stix101Cls w).vocabs, VocabFine v := by
  show ∀ v ∈ [motivationVocab101, indicatorTypeVocab], VocabFine v
  decide +kernel
theorem vocabs_11 (w : World) : ∀ v ∈ (stix11Cls w).vocabs, VocabFine v := by
  show ∀ v ∈ (stix11Cls w0).vocabs, VocabFine v
  decide +kernel
theorem vocabs_111 : ∀ v ∈ stix111Cls.vocabs, VocabFine v := by decide +kernel

theorem wf_of {v : String} (h : (parseVer v).isSome = true) : ¬ Malformed v := fun hm => by
  obtain ⟨a, ha⟩ := Option.isSome_iff_exists.1 h
  exact hm ⟨a, (parseVer_iff v a).1 ha⟩

theorem sound_schemaloc {checks : Bool} {ps : List String} {tags : List QName} (ht : ∀ X ∈ tags, X ∈ uriHolders) (u : Cls) {t : Node}
    (h : Sound checks ps tags t) : Sound checks ps tags (u.updateSchemalocs t) := by
  rw [updateSchemalocs_eq]
  exact sound_edit ht (fun c _ => gentle_schemaloc u c) h

theorem sound_stixVersions {checks : Bool} {ps : List String} {tags : List QName} (ht : ∀ X ∈ tags, X ∈ uriHolders) (u : Cls)
    {i v : String} (hi : (parseVer i).isSome = true) (hv : (parseVer v).isSome = true) {t : Node}
    (h : Sound checks ps tags t) : Sound checks ps tags (stixUpdateVersions u i v t) := by
  rw [stixVersions_eq]
  exact sound_edit ht (fun c _ => gentle_version (gentle_stixVersion (wf_of hi) (wf_of hv)) c) h

theorem update20_total {checks : Bool} {ps : List String} {tags : List QName} (ht : ∀ X ∈ tags, X ∈ uriHolders)
    (n : List (String × String)) (sel : List XAlt) (o : Options) {t : Node} (h : Sound checks ps tags t) :
    ∃ t', cybox20Update (cybox20Cls n sel) o t = .ok t' ∧ Sound checks ps tags t' := by
  simp only [cybox20Update]
  rw [cybox20Versions_eq, updateLists_eq]
  exact vocabsIf_total ht (vocabs_20 n sel) _ (sound_edit ht (fun c _ => gentle_lists _ c)
    (sound_edit ht (fun c _ => gentle_version gentle_201 c) (sound_schemaloc ht _ h)))

theorem update201_total {checks : Bool} {ps : List String} (n : List (String × String)) (sel : List XAlt) (o : Options) {t : Node}
    (h : Sound checks ps uriHolders t) :
    ∃ t', cybox201Update (cybox201Cls n sel) o t = .ok t' ∧ Sound checks ps [] t' := by
  simp only [cybox201Update]
  rw [cybox201Versions_eq, updateNamespaces_eq]
  have hu : ∀ X ∈ uriHolders, X ∈ uriHolders := fun _ h => h
  have h0 := sound_edit hu (F := nsEdit (cybox201Cls n sel)) (fun c hc => gentle_ns rfl rfl c hc) h
  have h1 := sound_edit hu (fun c _ => gentle_version (m := (cybox201Cls n sel).nsmap) (alts := (cybox201Cls n sel).xpathVersioned)
    gentle_21 c) (sound_schemaloc hu (cybox201Cls n sel) h0)
  obtain ⟨t2, a2, b2⟩ := fields201_total h1
  have a2' : translateFields (cybox201Cls n sel).translatable _ = .ok t2 := a2
  rw [a2']
  obtain ⟨t3, a3, b3⟩ := vocabsIf_total no_tags (vocabs_201 n sel) o.updateVocabularies b2
  simp only [a3]
  exact optionalsIf_total _ _ b3

theorem update10_total {checks : Bool} {ps : List String} {tags : List QName} (ht : ∀ X ∈ tags, X ∈ uriHolders) (o : Options) {t : Node}
    (h : Sound checks ps tags t) : ∃ t', stix10Update o t = .ok t' ∧ Sound checks ps tags t' := by
  simp only [stix10Update]
  obtain ⟨t1, a1, b1⟩ := update20_total ht (joinNsmap Tables.stix10_nsmap Tables.cybox20_nsmap) stix10Selectors o h
  have a1' : cybox20Update stix10Cybox o t = .ok t1 := a1
  rw [a1']
  simp only
  rw [updateNamespaces_none (u := stix10Cls) rfl]
  exact vocabsIf_total ht vocabs_10 _ (sound_stixVersions ht _ (by decide) (by decide) (sound_schemaloc ht _ b1))

theorem update101_total {checks : Bool} {ps : List String} (w : World) (o : Options) {t : Node}
    (h : Sound checks ps uriHolders t) : ∃ t', stix101Update w o t = .ok t' ∧ Sound checks ps [] t' := by
  simp only [stix101Update]
  obtain ⟨t1, a1, b1⟩ := update201_total (joinNsmap Tables.stix101_nsmap Tables.cybox201_nsmap) stix101Selectors o h
  have a1' : cybox201Update stix101Cybox o t = .ok t1 := a1
  rw [a1']
  simp only
  rw [updateNamespaces_none (u := stix101Cls w) rfl]
  obtain ⟨t2, a2, b2⟩ := fields101_total w (sound_stixVersions no_tags (stix101Cls w) (i := "2.1") (v := "1.1") (by decide) (by decide)
    (sound_schemaloc no_tags (stix101Cls w) b1))
  rw [a2]
  obtain ⟨t3, a3, b3⟩ := vocabsIf_total no_tags (vocabs_101 w) o.updateVocabularies b2
  simp only [a3]
  exact optionalsIf_total _ _ b3

theorem update11_total {checks : Bool} {ps : List String} (w : World) (o : Options) {t : Node}
    (h : Sound checks ps [] t) : ∃ t', stix11Update w o t = .ok t' ∧ Sound checks ps [] t' := by
  simp only [stix11Update]
  obtain ⟨t2, a2, b2⟩ := fields11_total w (sound_stixVersions no_tags (stix11Cls w) (i := "2.1.1") (v := "1.1.1") (by decide) (by decide)
    (sound_schemaloc no_tags (stix11Cls w) (sound_schemaloc no_tags stix11Cybox h)))
  rw [a2]
  obtain ⟨t3, a3, b3⟩ := vocabsIf_total no_tags (vocabs_11 w) o.updateVocabularies b2
  simp only [a3]
  exact optionalsIf_total _ _ b3

theorem update111_total {checks : Bool} {ps : List String} (o : Options) {t : Node}
    (h : Sound checks ps [] t) : ∃ t', stix111Update o t = .ok t' ∧ Sound checks ps [] t' := by
  simp only [stix111Update]
  exact vocabsIf_total no_tags vocabs_111 _ (sound_stixVersions no_tags _ (by decide) (by decide) (sound_schemaloc no_tags _ h))

/-! ## Helpers: checks -/

theorem readsCybox_wf {ps : List String} {e : Elem} (h : ElemFine true ps e) {v : String} (hv : ReadsCybox e v) :
    ¬ Malformed v := by
  have dig : ∀ {k : QName} {x : String}, k ∈ cyboxVersionAttrs → e.get? k = some x → x ≠ "" → Digits x.toList := by
    intro k x hk hx hne
    rcases (h.attrs _ (mem_of_get? hx)).2.2 rfl hk with h | h
    · exact absurd h hne
    · exact h
  obtain ⟨a, b, ha, ha', hb, hb', h3⟩ := hv
  have da := dig (by decide) ha ha'
  have db := dig (by decide) hb hb'
  intro hm
  apply hm
  rcases h3 with ⟨_, rfl⟩ | ⟨c, hc', hc, rfl⟩
  · have := VersionForm.short (r := []) (p := none) da db .none
    have e1 : String.ofList (a.toList ++ '.' :: (b.toList ++ [])) = a ++ "." ++ b := by
      apply String.toList_injective
      simp
    rw [e1] at this
    exact ⟨_, this⟩
  · have := VersionForm.long (r := []) (p := none) da db (dig (by decide) hc hc') .none
    have e1 : String.ofList (a.toList ++ '.' :: (b.toList ++ '.' :: (c.toList ++ []))) = a ++ "." ++ b ++ "." ++ c := by
      apply String.toList_injective
      simp
    rw [e1] at this
    exact ⟨_, this⟩

/-- A failed version check only refuses. -/
theorem cyboxCheck_refuses {ps : List String} {tags : List QName} {u : Cls} (hv : (parseVer u.version).isSome = true) {t : Node}
    (h : Sound true ps tags t) {x : Err} (hx : cyboxCheckVersion u t = .error x) : refusable x = true := by
  rcases checkRoots_error hx with ⟨h1, _⟩ | ⟨_, h1 | ⟨c, hc, y, hy, hm⟩⟩
  · exact refusal_refusable h1
  · exact absurd h1 (wf_of hv)
  · exact absurd hm (readsCybox_wf (each_elems.1 h.2 c (List.mem_filter.1 hc).1).1 hy)

theorem stixCheck_refuses {ps : List String} {tags : List QName} {u : Cls}
    (hm : assoc u.nsmap "stix" = some "http://stix.mitre.org/stix-1") (hr : u.xpathRoots = xpathStixRoots)
    (hv : (parseVer u.version).isSome = true) {t : Node} (h : Sound true ps tags t) {x : Err}
    (hx : stixCheckVersion u t = .error x) : refusable x = true := by
  by_cases hp : ∀ c, FirstPackage t c → RightStix u.version c.e
  · rw [stixCheck_pass hm hr hp] at hx; cases hx
  · simp only [Classical.not_forall] at hp
    obtain ⟨c, hf, hn⟩ := hp
    have hc := List.mem_of_find?_eq_some hf
    obtain ⟨y, h1, h2⟩ := (stixCheck_first hm hr hf (fun z hz => by
      rcases ((each_elems.1 h.2 c hc).1.attrs _ (mem_of_get? hz.1)).2.1 rfl rfl with e | e
      · exact absurd e hz.2
      · exact e) (wf_of hv)).2 hn
    rw [h2] at hx
    cases hx
    exact refusal_refusable h1

theorem refused {b : Bool} {l : Option (List Ctx)} {g : Option Dups} {x : Err}
    (h : (if b = true then (.ok () : Except Err Unit) else .error (.update l g)) = .error x) : refusable x = true := by
  cases b <;> cases h
  rfl

/-- The check of a registered step passes or refuses. -/
theorem check_refuses {w : World} {u : Updater} (hu : Registered w u) {ps : List String} {tags : List QName} {o : Options} {t : Node}
    (h : Sound o.checkVersions ps tags t) {x : Err} (hx : u.check o t = .error x) : refusable x = true := by
  have idle : ∀ {y : Except Err Unit} {x : Err}, (Sound true ps tags t → y = .error x → refusable x = true) →
      (if o.checkVersions = true then y else .ok ()) = .error x → refusable x = true := by
    intro y x hy he
    by_cases hc : o.checkVersions = true
    · rw [if_pos hc] at he; rw [hc] at h; exact hy h he
    · rw [if_neg hc] at he; cases he
  cases hu with
  | cybox20 => exact idle (fun h => cyboxCheck_refuses (by decide +kernel) h) hx
  | cybox201 =>
    have hx' : cybox201Check (cybox201Cls Tables.cybox201_nsmap xpathObservables) o t = .error x := hx
    unfold cybox201Check at hx'
    split at hx'
    · next y hy => cases hx'; exact idle (fun h => cyboxCheck_refuses (by decide +kernel) h) hy
    · obtain ⟨l, hl, _⟩ := findAll_201 t
      simp only [cybox201Cls, hl] at hx'
      exact refused hx'
  | stix10 =>
    have hx' : stix10Check o t = .error x := hx
    unfold stix10Check at hx'
    split at hx'
    · next y hy =>
      cases hx'
      refine idle (fun h he => ?_) hy
      split at he
      · next z hz => cases he; exact stixCheck_refuses (by decide +kernel) rfl (by decide +kernel) h hz
      · exact cyboxCheck_refuses (by decide +kernel) h he
    · obtain ⟨l, hl, _⟩ := findAll_10 (sound_wellTyped h)
      simp only [stix10GetDisallowed, stix10Cls, hl] at hx'
      split at hx' <;> cases hx'
      rfl
  | stix101 =>
    have hx' : stix101Check w o t = .error x := hx
    unfold stix101Check at hx'
    split at hx'
    · next y hy =>
      cases hx'
      refine idle (fun h he => ?_) hy
      split at he
      · next z hz =>
        cases he
        exact stixCheck_refuses (show assoc Tables.stix101_nsmap "stix" = _ by decide +kernel) rfl
          (show (parseVer Tables.stix101_version).isSome = true by decide +kernel) h hz
      · exact cyboxCheck_refuses (by decide +kernel) h he
    · obtain ⟨l, hl, _⟩ := findAll_101 w (sound_wellTyped h)
      obtain ⟨l', hl', _⟩ := findAll_201 t
      have : stix101Cybox.disallowed = cybox201Disallowed := rfl
      simp only [stix101GetDisallowed, hl, this, hl'] at hx'
      split at hx' <;> cases hx'
      rfl
  | stix11 =>
    exact idle (fun h => stixCheck_refuses (show assoc Tables.stix11_nsmap "stix" = _ by decide +kernel) rfl
      (show (parseVer Tables.stix11_version).isSome = true by decide +kernel) h) hx
  | stix111 => exact idle (fun h => stixCheck_refuses (by decide +kernel) rfl (by decide +kernel) h) hx
  | stix12 => exact idle (fun h => stixCheck_refuses (by decide +kernel) rfl (by decide +kernel) h) hx

/-! ## Helpers: cleaning -/

/-- No rule is about URI values. -/
theorem bad_value {w : World} {u : Updater} {rules : List Rule} {nss : Option (List String)} {ty : Bool}
    {V : Node → Prop} (hu : StepRules w u rules nss ty V) {t : Node} {c : Ctx} (hc : c ∈ t.elems) (hb : Untranslatable rules t c)
    (hv : c.e.tag = uriValueTag) : c.e.get? xsiTypeAttr ≠ none := by
  have below : ∀ {ns n : String}, Below ns n c → (⟨some ns, n⟩ : QName) ≠ uriValueTag → False :=
    fun h hne => hne (h.2.symm.trans hv)
  have typed : ∀ {ty ns : String}, (typeRule ty ns).Bad t c → c.e.get? xsiTypeAttr ≠ none := by
    rintro ty ns ⟨_, p, v, h, _⟩ hn
    have := hn.symm.trans h
    cases this
  have wrap : ∀ {n ns : String}, (wrapRule n ns).Bad t c → False := fun h => below h.1 (by
    intro e
    have := congrArg QName.ns e
    revert this
    show some "http://stix.mitre.org/TTP-1" = some "http://cybox.mitre.org/objects#URIObject-2" → False
    decide)
  have r201 : Untranslatable rules201 t c → False := by
    rintro ⟨r, hr, h⟩
    simp only [rules201, List.mem_cons, List.not_mem_nil, or_false] at hr
    rcases hr with rfl | rfl | rfl | rfl
    · exact below h (by decide)
    · exact below h (by decide)
    · exact absurd (h.1.symm.trans hv) (by decide)
    · exact below h.1 (by decide)
  cases hu with
  | cybox20 => obtain ⟨r, hr, _⟩ := hb; cases hr
  | cybox201 => exact (r201 hb).elim
  | stix10 =>
    obtain ⟨r, hr, h⟩ := hb
    simp only [rules10, List.mem_cons, List.not_mem_nil, or_false] at hr
    rcases hr with rfl | rfl | rfl | rfl
    · exact typed h
    · exact typed h
    · exact (wrap h).elim
    · exact (wrap h).elim
  | stix101 =>
    obtain ⟨r, hr, h⟩ := hb
    rcases List.mem_append.1 hr with hr | hr
    · simp only [rules101, List.mem_cons, List.not_mem_nil, or_false] at hr
      rcases hr with rfl | rfl | rfl | rfl | rfl
      · exact typed h
      · exact typed h
      · obtain ⟨d, hd, h1, i, hi⟩ := h
        obtain ⟨q, qs, ha⟩ := h1.2.1
        have h2 := (elems_childOf hc hd hi).2.2.1
        rw [ha] at h2
        simp only [List.cons.injEq] at h2
        exact absurd (h2.1.trans hv) (by decide)
      · exact (wrap h).elim
      · exact (wrap h).elim
    · exact (r201 ⟨r, hr, h⟩).elim
  | stix11 => obtain ⟨r, hr, _⟩ := hb; cases hr
  | stix111 => obtain ⟨r, hr, _⟩ := hb; cases hr
  | stix12 => obtain ⟨r, hr, _⟩ := hb; cases hr

theorem clean_sound {w : World} {u : Updater} {rules : List Rule} {nss : Option (List String)} {ty : Bool}
    {V : Node → Prop} (hu : StepRules w u rules nss ty V) {checks : Bool} {ps : List String} {tags : List QName}
    (ht : ∀ X ∈ tags, X ∈ uriHolders) {o : Options} {k k' : Nat} {t : Node} {r : Result} (hc : clean u o k t = .ok (r, k'))
    (h : Sound checks ps tags t) : Sound checks ps tags r.doc := by
  obtain ⟨F, l, ν, n, hF, hl, h1, h2, hd, _⟩ := clean_spec hu hc
  rw [hd]
  have key : ∀ c ∈ t.elems, Gentle checks ps c.e (F c) ∧ (F c).get? xsiTypeAttr = c.e.get? xsiTypeAttr := by
    intro c hc
    by_cases hD : DupAt nss t c
    · rw [h1 c hc hD]
      refine ⟨gentle_set (harmless_of (by decide)), ?_⟩
      rw [Elem.get?_set]
      exact if_neg (by decide)
    · rw [h2 c hc hD]
      exact ⟨.refl _ _ _, rfl⟩
  have he : t.edit F = t.edit (fun c => if c ∈ t.elems then F c else c.e) :=
    edit_congr (fun c hc => by rw [if_pos hc])
  refine sound_without (Or.inr ?_) ?_
  · intro c hc hs hv hn
    rw [elems_edit hF] at hc
    obtain ⟨d, hd, rfl⟩ := List.mem_map.1 hc
    obtain ⟨b, hb, hp⟩ := List.mem_map.1 (of_decide_eq_true hs)
    obtain ⟨hb1, hb2⟩ := (reportsAll_mem hl b).1 hb
    have := elems_pos_inj hb1 hd hp
    subst this
    refine bad_value hu hb1 hb2 ((hF b).1.symm.trans hv) ?_
    rw [← (key b hd).2]; exact hn
  · rw [he]
    refine sound_edit ht (fun c _ => ?_) h
    split
    · next hc => exact (key c hc).1
    · exact .refl _ _ _

theorem clean_ok {u : Updater} {o : Options} {k : Nat} {t : Node} {d : Option (List Ctx)} (h : u.disallowed t = .ok d) :
    ∃ r k', clean u o k t = .ok (r, k') := by
  unfold clean
  rw [h]
  exact ⟨_, _, rfl⟩

/-! ## Helpers: steps and chains -/

theorem disallowed_total {w : World} {u : Updater} {rules : List Rule} {nss : Option (List String)} {ty : Bool}
    {V : Node → Prop} (hu : StepRules w u rules nss ty V) {t : Node} (h : WellTyped t) :
    (∃ d, u.disallowed t = .ok d) ∨ u = stix12 := by
  cases hu with
  | cybox20 => exact Or.inl ⟨none, rfl⟩
  | cybox201 =>
    obtain ⟨l, hl, _⟩ := findAll_201 t
    refine Or.inl ⟨some l, ?_⟩
    show (findAll cybox201Disallowed t).map some = _
    rw [hl]; rfl
  | stix10 =>
    obtain ⟨l, hl, _⟩ := findAll_10 h
    refine Or.inl ⟨some l, ?_⟩
    show (findAll stix10Disallowed t).map some = _
    rw [hl]; rfl
  | stix101 =>
    obtain ⟨l, hl, _⟩ := findAll_101 w h
    obtain ⟨l', hl', _⟩ := findAll_201 t
    have : stix101Cybox.disallowed = cybox201Disallowed := rfl
    refine Or.inl ⟨some (l ++ l'), ?_⟩
    show (stix101GetDisallowed w t).map some = _
    simp only [stix101GetDisallowed, hl, this, hl']; rfl
  | stix11 => exact Or.inl ⟨none, rfl⟩
  | stix111 => exact Or.inl ⟨none, rfl⟩
  | stix12 => exact Or.inr rfl

/-- A step that takes documents in one state to documents in another. -/
def Passes (u : Updater) (tags tags' : List QName) : Prop :=
  ∀ (o : Options) (ps : List String) (k : Nat) (t : Node), Sound o.checkVersions ps tags t →
    ∃ r k', stepUpdate u o true k t = .ok (r, k') ∧ Sound o.checkVersions ps tags' r.doc

theorem passes_of {w : World} {u : Updater} {rules : List Rule} {nss : Option (List String)} {ty : Bool}
    {V : Node → Prop} (hu : StepRules w u rules nss ty V) (hd : ∀ t, WellTyped t → ∃ d, u.disallowed t = .ok d)
    {tags tags' : List QName} (ht : ∀ X ∈ tags, X ∈ uriHolders)
    (hup : ∀ (o : Options) (ps : List String) (t : Node), Sound o.checkVersions ps tags t →
      ∃ t', u.update o t = .ok t' ∧ Sound o.checkVersions ps tags' t') : Passes u tags tags' := by
  intro o ps k t h
  obtain ⟨t', h1, h2⟩ := hup o ps t h
  unfold stepUpdate tryUpdate
  cases hc : u.check o t with
  | ok _ => simp only [h1]; exact ⟨_, _, rfl, h2⟩
  | error x =>
    simp only [check_refuses (stepRules_registered hu) h hc, Bool.and_self, if_true]
    obtain ⟨d, hd⟩ := hd t (sound_wellTyped h)
    obtain ⟨r, k', hr⟩ := clean_ok (o := o) (k := k) hd
    obtain ⟨t2, h3, h4⟩ := hup o ps r.doc (clean_sound hu ht hr h)
    simp only [forceUpdate, hr, h3]
    exact ⟨_, _, rfl, h4⟩

theorem passes_20 {tags : List QName} (ht : ∀ X ∈ tags, X ∈ uriHolders) : Passes cybox20 tags tags :=
  passes_of (w := w0) .cybox20 (fun _ _ => ⟨none, rfl⟩) ht (fun o _ _ h => update20_total ht _ _ o h)
theorem passes_201 : Passes cybox201 uriHolders [] :=
  passes_of (w := w0) .cybox201 (fun _ h => (disallowed_total (w := w0) .cybox201 h).resolve_right (fun e => by
    have := congrArg (fun u : Updater => u.cls.version) e; revert this; decide +kernel)) (fun _ h => h)
    (fun o _ _ h => update201_total _ _ o h)
theorem passes_10 {tags : List QName} (ht : ∀ X ∈ tags, X ∈ uriHolders) : Passes stix10 tags tags :=
  passes_of (w := w0) .stix10 (fun _ h => (disallowed_total (w := w0) .stix10 h).resolve_right (fun e => by
    have := congrArg (fun u : Updater => u.cls.version) e; revert this; decide +kernel)) ht
    (fun o _ _ h => update10_total ht o h)
theorem passes_101 (w : World) : Passes (stix101 w) uriHolders [] :=
  passes_of (w := w) .stix101 (fun _ h => (disallowed_total (w := w) .stix101 h).resolve_right (fun e => by
    have : Tables.stix101_version = Tables.stix12_version := congrArg (fun u : Updater => u.cls.version) e
    revert this; decide +kernel)) (fun _ h => h) (fun o _ _ h => update101_total w o h)
theorem passes_11 (w : World) : Passes (stix11 w) [] [] :=
  passes_of (w := w) .stix11 (fun _ _ => ⟨none, rfl⟩) no_tags (fun o _ _ h => update11_total w o h)
theorem passes_111 : Passes stix111 [] [] :=
  passes_of (w := w0) .stix111 (fun _ _ => ⟨none, rfl⟩) no_tags (fun o _ _ h => update111_total o h)

/-- A row of steps, each ready for what the one before leaves. -/
inductive Path (reg : List (String × Updater)) : List QName → List String → List QName → Prop
  | nil {T : List QName} : Path reg T [] T
  | cons {T T' T'' : List QName} {v : String} {u : Updater} {vs : List String} : assoc reg v = some u → Passes u T T' →
      Path reg T' vs T'' → Path reg T (v :: vs) T''

theorem path_ok {reg : List (String × Updater)} {T T' : List QName} {vs : List String} (hp : Path reg T vs T') (o : Options)
    (ps : List String) : ∀ (acc : Result) (k : Nat), Sound o.checkVersions ps T acc.doc →
    ∃ r k', chainLoop reg o true vs acc k = .ok (r, k') ∧ Sound o.checkVersions ps T' r.doc := by
  induction hp with
  | nil => intro acc k h; exact ⟨acc, k, rfl, h⟩
  | cons hu hpass _ ih =>
    intro acc k h
    obtain ⟨r, k', h1, h2⟩ := hpass o ps k acc.doc h
    simp only [chainLoop, hu, h1]
    exact ih _ _ h2

/-- The last STIX step. -/
theorem last_step {o : Options} {k : Nat} {t : Node} (hv : o.checkVersions = true → StixVersion "1.2" t) :
    ∃ r k', stepUpdate stix12 o true k t = .ok (r, k') := by
  have hc : stix12.check o t = .ok () := by
    show (if o.checkVersions = true then stixCheckVersion stix12Cls t else .ok ()) = .ok ()
    split
    · next ho => exact stixCheck_pass (by decide +kernel) rfl (hv ho)
    · rfl
  unfold stepUpdate tryUpdate
  rw [hc]
  exact ⟨_, _, rfl⟩

theorem version_after (w : World) {o : Options} {force : Bool} {k k' : Nat} {t : Node} {r : Result}
    (h : stepUpdate stix111 o force k t = .ok (r, k')) : StixVersion "1.2" r.doc := by
  intro c hf
  have h1 := (C23_versions_partial w o force k t r k').2.2 h c (List.mem_of_find?_eq_some hf)
  have h2 : c.e.tag = packageTag := by
    have := List.find?_some hf
    exact of_decide_eq_true this
  have h3 := h1 (Or.inl h2)
  rw [h2] at h3
  exact ⟨"1.2", ⟨1, 2, 0, none⟩, ⟨h3, by decide⟩, (parseVer_iff _ _).1 (by decide), (parseVer_iff _ _).1 (by decide)⟩

/-- What a chain needs: URI values if there is the step from 1.0.1 (from CybOX 2.0.1). -/
def stixNeeds (vs : List String) : List QName := if "1.0.1" ∈ vs then uriHolders else []
def cyboxNeeds (vs : List String) : List QName := if "2.0.1" ∈ vs then uriHolders else []

theorem sound_needs {checks b : Bool} {ps : List String} {t : Node} (h : InOrder checks ps t) (hv : b = true → HasValues t) :
    Sound checks ps (if b = true then uriHolders else []) t := by
  cases b with
  | true => exact sound_of h (hv rfl)
  | false => exact sound_of' h

/-- The chains that do not have the last step. -/
theorem stix_path (w : World) : ∀ vs ∈ ([["1.0"], ["1.0", "1.0.1"], ["1.0", "1.0.1", "1.1"], ["1.0", "1.0.1", "1.1", "1.1.1"],
      ["1.0.1"], ["1.0.1", "1.1"], ["1.0.1", "1.1", "1.1.1"], ["1.1"], ["1.1", "1.1.1"], ["1.1.1"]] : List (List String)),
    ∃ T, Path (stixUpdaters w) (stixNeeds vs) vs T := by
  have a1 : assoc (stixUpdaters w) "1.0" = some stix10 := by simp [stixUpdaters, assoc]
  have a2 : assoc (stixUpdaters w) "1.0.1" = some (stix101 w) := by simp [stixUpdaters, assoc]
  have a3 : assoc (stixUpdaters w) "1.1" = some (stix11 w) := by simp [stixUpdaters, assoc]
  have a4 : assoc (stixUpdaters w) "1.1.1" = some stix111 := by simp [stixUpdaters, assoc]
  have hu : ∀ X ∈ uriHolders, X ∈ uriHolders := fun _ h => h
  intro vs hvs
  simp only [List.mem_cons, List.not_mem_nil, or_false] at hvs
  rcases hvs with rfl | rfl | rfl | rfl | rfl | rfl | rfl | rfl | rfl | rfl
  · exact ⟨[], .cons a1 (passes_10 no_tags) .nil⟩
  · exact ⟨[], .cons a1 (passes_10 hu) (.cons a2 (passes_101 w) .nil)⟩
  · exact ⟨[], .cons a1 (passes_10 hu) (.cons a2 (passes_101 w) (.cons a3 (passes_11 w) .nil))⟩
  · exact ⟨[], .cons a1 (passes_10 hu) (.cons a2 (passes_101 w) (.cons a3 (passes_11 w) (.cons a4 passes_111 .nil)))⟩
  · exact ⟨[], .cons a2 (passes_101 w) .nil⟩
  · exact ⟨[], .cons a2 (passes_101 w) (.cons a3 (passes_11 w) .nil)⟩
  · exact ⟨[], .cons a2 (passes_101 w) (.cons a3 (passes_11 w) (.cons a4 passes_111 .nil))⟩
  · exact ⟨[], .cons a3 (passes_11 w) .nil⟩
  · exact ⟨[], .cons a3 (passes_11 w) (.cons a4 passes_111 .nil)⟩
  · exact ⟨[], .cons a4 passes_111 .nil⟩

/-- The part before the last two steps. -/
theorem stix_path_long (w : World) : ∀ vs ∈ ([[], ["1.1"], ["1.0.1", "1.1"], ["1.0", "1.0.1", "1.1"]] : List (List String)),
    Path (stixUpdaters w) (stixNeeds vs) vs [] := by
  have a1 : assoc (stixUpdaters w) "1.0" = some stix10 := by simp [stixUpdaters, assoc]
  have a2 : assoc (stixUpdaters w) "1.0.1" = some (stix101 w) := by simp [stixUpdaters, assoc]
  have a3 : assoc (stixUpdaters w) "1.1" = some (stix11 w) := by simp [stixUpdaters, assoc]
  have hu : ∀ X ∈ uriHolders, X ∈ uriHolders := fun _ h => h
  intro vs hvs
  simp only [List.mem_cons, List.not_mem_nil, or_false] at hvs
  rcases hvs with rfl | rfl | rfl | rfl
  · exact .nil
  · exact .cons a3 (passes_11 w) .nil
  · exact .cons a2 (passes_101 w) (.cons a3 (passes_11 w) .nil)
  · exact .cons a1 (passes_10 hu) (.cons a2 (passes_101 w) (.cons a3 (passes_11 w) .nil))

theorem cybox_path : ∀ vs ∈ ([["2.0"], ["2.0", "2.0.1"], ["2.0.1"]] : List (List String)),
    ∃ T, Path cyboxUpdaters (cyboxNeeds vs) vs T := by
  have a1 : assoc cyboxUpdaters "2.0" = some cybox20 := by simp [cyboxUpdaters, assoc]
  have a2 : assoc cyboxUpdaters "2.0.1" = some cybox201 := by simp [cyboxUpdaters, assoc]
  intro vs hvs
  simp only [List.mem_cons, List.not_mem_nil, or_false] at hvs
  rcases hvs with rfl | rfl | rfl
  · exact ⟨[], .cons a1 (passes_20 no_tags) .nil⟩
  · exact ⟨[], .cons a1 (passes_20 (fun _ h => h)) (.cons a2 passes_201 .nil)⟩
  · exact ⟨[], .cons a2 passes_201 .nil⟩

theorem stix_slices : ∀ s ∈ stixReleases, ∀ g ∈ stixReleases, stixReleases.idxOf s < stixReleases.idxOf g →
    between stixReleases s g ∈ ([["1.0"], ["1.0", "1.0.1"], ["1.0", "1.0.1", "1.1"], ["1.0", "1.0.1", "1.1", "1.1.1"],
      ["1.0.1"], ["1.0.1", "1.1"], ["1.0.1", "1.1", "1.1.1"], ["1.1"], ["1.1", "1.1.1"], ["1.1.1"]] : List (List String)) ∨
    (g = "1.2.1" ∧ (s = "1.2" ∨ between stixReleases s g = between stixReleases s "1.1.1" ++ ["1.1.1", "1.2"] ∧
      between stixReleases s "1.1.1" ∈ ([[], ["1.1"], ["1.0.1", "1.1"], ["1.0", "1.0.1", "1.1"]] : List (List String)) ∧
      ("1.0.1" ∈ between stixReleases s "1.1.1" → "1.0.1" ∈ between stixReleases s g))) := by decide

theorem cybox_slices : ∀ s ∈ cyboxReleases, ∀ g ∈ cyboxReleases, cyboxReleases.idxOf s < cyboxReleases.idxOf g →
    between cyboxReleases s g ∈ ([["2.0"], ["2.0", "2.0.1"], ["2.0.1"]] : List (List String)) := by decide

/-! ## C12 -/

/-- C12 for STIX: once the range is accepted, a forced update of a document in order returns a result, whatever untranslatable
content, shared ids or wrong versions it has.
Partial: documents have to be in order (`InOrder`; with the step from 1.0.1, `HasValues`), for the others see the negations
below; and a chain that begins with the step from 1.2 needs the right version, as this step cannot be forced
(`C12_step12_fails`). -/
theorem C12_stix_partial (w : World) (t : Node) {from_ to_ : Option String} {s g : String} (o : Options) (k : Nat)
    (hs : inForce from_ (stixRootVersion t) = some s) (hg : inForce to_ (some "1.2.1") = some g)
    (h : Older stixReleases s g) (ps : List String) (hi : InOrder o.checkVersions ps t)
    (hv : "1.0.1" ∈ between stixReleases s g → HasValues t)
    (h12 : s = "1.2" → o.checkVersions = true → StixVersion "1.2" t) :
    ∃ r k', stixUpdate w t from_ to_ o true k = .ok (r, k') := by
  rw [stixUpdate_accepted w t o true k hs hg h]
  have a4 : assoc (stixUpdaters w) "1.1.1" = some stix111 := by simp [stixUpdaters, assoc]
  have a5 : assoc (stixUpdaters w) "1.2" = some stix12 := by simp [stixUpdaters, assoc]
  have hm := older_mem h
  have needs : ∀ vs, ("1.0.1" ∈ vs → "1.0.1" ∈ between stixReleases s g) → Sound o.checkVersions ps (stixNeeds vs) t := by
    intro vs hvs
    have := sound_needs (b := decide ("1.0.1" ∈ vs)) hi (fun e => hv (hvs (of_decide_eq_true e)))
    simpa [stixNeeds] using this
  rcases stix_slices s hm.1 g hm.2 ((older_iff stix_nodup hm.1 hm.2).1 h) with h1 | ⟨rfl, rfl | ⟨h1, h2, h3⟩⟩
  · obtain ⟨T, hp⟩ := stix_path w _ h1
    obtain ⟨r, k', h2, _⟩ := path_ok hp o ps ⟨t, [], []⟩ k (needs _ (fun h => h))
    exact ⟨r, k', h2⟩
  · show ∃ r k', chainLoop (stixUpdaters w) o true ["1.2"] _ _ = _
    obtain ⟨r, k', hr⟩ := last_step (k := k) (h12 rfl)
    simp only [chainLoop, a5, hr]
    exact ⟨_, _, rfl⟩
  · rw [h1, chainLoop_append]
    obtain ⟨r, k', h4, h5⟩ := path_ok (stix_path_long w _ h2) o ps ⟨t, [], []⟩ k (needs _ h3)
    rw [h4]
    obtain ⟨r1, k1, h6, h7⟩ := passes_111 o ps k' r.doc h5
    obtain ⟨r2, k2, h8⟩ := last_step (o := o) (k := k1) (fun _ => version_after w h6)
    simp only [chainLoop, a4, a5, h6, h8]
    exact ⟨_, _, rfl⟩

/-- C12 for CybOX. -/
theorem C12_cybox_partial (t : Node) {from_ to_ : Option String} {s g : String} (o : Options) (k : Nat)
    (hs : cyboxSource t from_ = .ok (some s)) (hg : inForce to_ (some "2.1") = some g)
    (h : Older cyboxReleases s g) (ps : List String) (hi : InOrder o.checkVersions ps t)
    (hv : "2.0.1" ∈ between cyboxReleases s g → HasValues t) :
    ∃ r k', cyboxUpdate t from_ to_ o true k = .ok (r, k') := by
  rw [cyboxUpdate_accepted t o true k hs hg h]
  have hm := older_mem h
  obtain ⟨T, hp⟩ := cybox_path _ (cybox_slices s hm.1 g hm.2 ((older_iff cybox_nodup hm.1 hm.2).1 h))
  have := sound_needs (b := decide ("2.0.1" ∈ between cyboxReleases s g)) hi (fun e => hv (of_decide_eq_true e))
  obtain ⟨r, k', h2, _⟩ := path_ok hp o ps ⟨t, [], []⟩ k (by simpa [cyboxNeeds] using this)
  exact ⟨r, k', h2⟩

/-- C12 for the entry point `update`. -/
theorem C12_update_partial (w : World) (e : Elem) (ks : List Node) {from_ to_ : Option String} {s g : String} (o : Options)
    (k : Nat) (ps : List String) (hi : InOrder o.checkVersions ps (.elem e ks)) (hv : HasValues (.elem e ks))
    (h : (e.tag.name = "STIX_Package" ∧ inForce from_ (stixRootVersion (.elem e ks)) = some s ∧
        inForce to_ (some "1.2.1") = some g ∧ Older stixReleases s g ∧
        (s = "1.2" → o.checkVersions = true → StixVersion "1.2" (.elem e ks))) ∨
      (e.tag.name = "Observables" ∧ cyboxSource (.elem e ks) from_ = .ok (some s) ∧
        inForce to_ (some "2.1") = some g ∧ Older cyboxReleases s g)) :
    ∃ r k', update w (.elem e ks) from_ to_ o true k = .ok (r, k') := by
  rcases h with ⟨hn, hs, hg, ho, h12⟩ | ⟨hn, hs, hg, ho⟩
  · rw [(C01_dispatch w e ks from_ to_ o true k).1 hn]
    exact C12_stix_partial w _ o k hs hg ho ps hi (fun _ => hv) h12
  · rw [(C01_dispatch w e ks from_ to_ o true k).2.1 hn]
    exact C12_cybox_partial _ o k hs hg ho ps hi (fun _ => hv)

/-! ### Cases -/

/-- The type of an attribute value, as a check for concrete documents. -/
def qtypeOf (v : String) : Option (String × String) :=
  match pySplit ':' v with
  | [p, ty] => some (p, ty)
  | _ => none

theorem qtypeOf_some {v p ty : String} (h : qtypeOf v = some (p, ty)) : IsQType v p ty := by
  have : getTypeInfo ⟨⟨none, ""⟩, [], [(tagXsiType, v)], none, none⟩ = .ok (p, ty) := by
    unfold qtypeOf at h
    unfold getTypeInfo
    simp only [Elem.get?, Attrs.get?, if_true]
    split at h
    · next hq => cases h; rw [hq]
    · cases h
  obtain ⟨v', hv, hq⟩ := getTypeInfo_ok.1 this
  simp only [Elem.get?, Attrs.get?, if_true, Option.some.injEq] at hv
  exact hv ▸ hq

def checkElem (ps : List String) (e : Elem) : Bool :=
  (e.attrs.all fun a =>
    (decide (a.1 ≠ xsiTypeAttr) || (match qtypeOf a.2 with
      | some (p, ty) => decide (p ∈ ps) && (decide (ty ∉ brokenTypes) || e.attrs.all fun b => decide (b.1 ≠ ⟨none, "vocab_reference"⟩))
      | none => false)) &&
    (decide (a.1 ≠ ⟨none, "version"⟩) || decide (a.2 = "") || (parseVer a.2).isSome) &&
    (decide (a.1 ∉ cyboxVersionAttrs) || decide (a.2 = "") || (decide (a.2.toList ≠ []) && a.2.toList.all fun ch => decide ('0' ≤ ch ∧ ch ≤ '9')))) &&
  (decide (e.tag ∉ sourceTags) || (match e.text with
    | none => true
    | some s => s.toList.all fun ch => decide (ch ∉ ['<', '>', '&', '\r'])))

theorem checkElem_fine {checks : Bool} {ps : List String} {e : Elem} (h : checkElem ps e = true) : ElemFine checks ps e := by
  simp only [checkElem, Bool.and_eq_true, List.all_eq_true, Bool.or_eq_true, decide_eq_true_eq] at h
  obtain ⟨h1, h2⟩ := h
  constructor
  · intro a ha
    obtain ⟨⟨ht, hv⟩, hc⟩ := h1 a ha
    refine ⟨fun e1 => ?_, fun _ e1 => ?_, fun _ e1 => ?_⟩
    · rcases ht with ht | ht
      · exact absurd e1 ht
      · split at ht
        · next p ty hq => 
          simp only [Bool.and_eq_true, decide_eq_true_eq] at ht
          exact ⟨p, ty, qtypeOf_some hq, ht.1⟩
        · cases ht
    · rcases hv with (hv | hv) | hv
      · exact absurd e1 hv
      · exact Or.inl hv
      · exact Or.inr (wf_of hv)
    · rcases hc with (hc | hc) | hc
      · exact absurd e1 hc
      · exact Or.inl hc
      · exact Or.inr hc
  · intro a ha e1 b hb e2 p ty hq
    obtain ⟨⟨ht, _⟩, _⟩ := h1 b hb
    rcases ht with ht | ht
    · exact absurd e2 ht
    · split at ht
      · next p' ty' hq' =>
        simp only [Bool.and_eq_true, Bool.or_eq_true, decide_eq_true_eq, List.all_eq_true] at ht
        obtain ⟨_, rfl⟩ := isQType_unique hq (qtypeOf_some hq')
        rcases ht.2 with h | h
        · exact h
        · exact absurd e1 (h a ha)
      · cases ht
  · intro ht s hs
    rcases h2 with h2 | h2
    · exact absurd ht h2
    · rw [hs] at h2
      exact fun ch hch => of_decide_eq_true (List.all_eq_true.1 h2 ch hch)

def isElement : Node → Bool
  | .elem _ _ => true
  | _ => false

def checkDoc (ps : List String) (t : Node) : Bool :=
  (match t with
    | .elem e _ => ps.all fun p => (NsMap.get? e.decls (some p)).isSome
    | _ => false) &&
  t.elems.all fun c => checkElem ps c.e && (decide (c.e.tag ≠ contributorsTag) || c.kids.all isElement)

/-- A way to check concrete documents. -/
theorem inOrder_of {ps : List String} {t : Node} (h : checkDoc ps t = true) (checks : Bool) : InOrder checks ps t := by
  simp only [checkDoc, Bool.and_eq_true, List.all_eq_true, Bool.or_eq_true, decide_eq_true_eq] at h
  obtain ⟨h1, h2⟩ := h
  constructor
  · split at h1
    · next e ks => exact ⟨e, ks, rfl, fun p hp hn => by
        have := List.all_eq_true.1 h1 p hp
        rw [hn] at this; cases this⟩
    · cases h1
  · exact fun c hc => checkElem_fine (h2 c hc).1
  · intro c hc ht k hk
    rcases (h2 c hc).2 with h | h
    · exact absurd ht h
    · have := h k hk
      cases k with
      | elem e' ks' => exact ⟨e', ks', rfl⟩
      | _ => cases this

def checkValue (e : Elem) (ks : List Node) : Bool :=
  decide (e.tag ∉ uriHolders) || ks.any fun k => match k with
    | .elem e' _ => decide (e'.tag = uriValueTag) && decide (e'.get? xsiTypeAttr = none)
    | _ => false

theorem hasValues_of {t : Node} (h : (t.elems.all fun c => checkValue c.e c.kids) = true) : HasValues t := by
  intro c hc ht
  have h1 := List.all_eq_true.1 h c hc
  simp only [checkValue, Bool.or_eq_true, decide_eq_true_eq, List.any_eq_true] at h1
  rcases h1 with h1 | ⟨k, hk, h1⟩
  · exact absurd ht h1
  · cases k with
    | elem e' ks' =>
      simp only [Bool.and_eq_true, decide_eq_true_eq] at h1
      exact ⟨e', ks', hk, h1.1, h1.2⟩
    | _ => cases h1

/-- A 1.0 package with MAEC and CAPEC instances, a header with its value, two observables sharing an id, a wrong embedded CybOX
version and an outdated vocabulary value. -/
def docForced : Node :=
  stixDoc "1.0"
    [el nsTTP "Malware" []
      [el nsTTP "Malware_Instance" [xsiType "maec:MAEC4.0InstanceType"] [] (some "m"),
       el nsTTP "Malware_Instance" [xsiType "capec:CAPEC2.5InstanceType"] [] (some "c")],
     el nsStix "Observables" [at_ "cybox_major_version" "7", at_ "cybox_minor_version" "0"]
      [el nsCyboxCore "Observable" [at_ "id" "d"] [],
       el nsCyboxCore "Observable" [at_ "id" "d"] [el nsHTTPSession "DNT" [] [el nsURI "Value" [] [] (some "1")]]],
     el nsTTP "Motivation" [xsiType "stixVocabs:MotivationVocab-1.0.1"] [] (some "Policy"),
     el nsCommon "Source" [] [] (some "me")]

/-- It goes through all six steps when forced. -/
example : ∃ r k', stixUpdate w0 docForced none none o0 true 0 = .ok (r, k') :=
  C12_stix_partial w0 docForced o0 0 (s := "1.0") (g := "1.2.1") (by decide +kernel) rfl
    ((older_iff stix_nodup (by decide) (by decide)).2 (by decide))
    ["maec", "capec", "stixVocabs"] (inOrder_of (by decide +kernel) _) (fun _ => hasValues_of (by decide +kernel))
    (fun h => absurd h (by decide))

/-- Not so when it is not. -/
example : (stixUpdate w0 docForced none none o0 false 0).isOk = false := by decide +kernel

example : ∃ r k', cyboxUpdate cybox201bad none none o0 true 0 = .ok (r, k') :=
  C12_cybox_partial cybox201bad o0 0 (s := "2.0.1") (g := "2.1") (by decide +kernel) rfl
    ((older_iff cybox_nodup (by decide) (by decide)).2 (by decide)) [] (inOrder_of (by decide +kernel) _) (fun _ => hasValues_of (by decide +kernel))

example : (cyboxUpdate cybox201bad none none o0 false 0).isOk = false := by decide +kernel

example : ∃ r k', update w0 docForced none none o0 true 0 = .ok (r, k') :=
  C12_update_partial w0 _ _ o0 0 ["maec", "capec", "stixVocabs"] (inOrder_of (t := docForced) (by decide +kernel) _)
    (hasValues_of (t := docForced) (by decide +kernel))
    (Or.inl ⟨rfl, show _ = some "1.0" by decide +kernel, show _ = some "1.2.1" from rfl,
      (older_iff stix_nodup (by decide) (by decide)).2 (by decide), fun h => absurd h (by decide)⟩)

/-! ### Where it fails -/

/-- C12 fails for the step from 1.2: forcing it raises `NotImplementedError` as soon as there is something to force, here a
wrong version. -/
theorem C12_step12_fails : update w0 (stixDoc "1.1.1" []) (some "1.2") none o0 true 0 = .error .notImplemented ∧
    update w0 (stixDoc "1.1.1" []) (some "1.2") none o0 false 0 =
      .error (.invalidVersion ((stixDoc "1.1.1" []).ctxAt []) (some "1.2") (some "1.1.1")) := by
  decide +kernel

/-- C12 fails for malformed versions: the root has the right version, but an embedded CybOX root has `x` in its version, or the
range is given while the root has the version `one`. -/
theorem C12_malformed_version_fails :
    update w0 (stixDoc "1.0" [el nsStix "Observables" [at_ "cybox_major_version" "2", at_ "cybox_minor_version" "x"] []])
      none none o0 true 0 = .error .valueError ∧
    update w0 (stixDoc "one" []) (some "1.1.1") none o0 true 0 = .error .valueError := by decide +kernel

/-- C12 fails for malformed `xsi:type` values: `ValueError` without a colon, `KeyError` with an unknown prefix. -/
theorem C12_malformed_type_fails :
    update w0 (stixDoc "1.1.1" [el nsStix "X" [xsiType "Foo"] []]) none none o0 true 0 = .error .valueError ∧
    update w0 (stixDoc "1.1.1" [el nsStix "X" [xsiType "foo:Bar"] []]) none none o0 true 0 = .error .keyError := by
  decide +kernel

/-- C12 fails for the two vocabularies with a tuple as reference. -/
theorem C12_reference_fails : update w0 docPlanning none none o0 true 0 = .error .typeError ∧
    update w0 docRelationship none none o0 true 0 = .error .typeError := by decide +kernel

/-- C12 fails for `DNT` without a value, for comments among contributors, and for sources with markup characters. -/
theorem C12_content_fails : update w0 docNoValue none none o0 true 0 = .error .indexError ∧
    update w0 docContributorsComment none none o0 true 0 = .error .attributeError ∧
    update w0 docMarkupSource none none o0 true 0 = .error .xmlSyntax := by decide +kernel

end Ramrod

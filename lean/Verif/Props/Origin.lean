import Verif.Props.VocabChain
import Verif.Props.Texts
/-!
# Nothing is made up: C57
-/

namespace Ramrod

open Samples

/-! ## Statement -/

/-- The names that the steps introduce for the wrappers of moved content. -/
def addedNames : List QName :=
  [⟨some "http://stix.mitre.org/common-1", "Contributing_Sources"⟩, ⟨some "http://stix.mitre.org/common-1", "Source"⟩,
    ⟨some "http://stix.mitre.org/common-1", "Identity"⟩, ⟨some "http://stix.mitre.org/common-1", "Name"⟩,
    ⟨some "http://stix.mitre.org/common-1", "Campaign"⟩, ⟨some "http://stix.mitre.org/TTP-1", "Exploit_Target"⟩]

/-- The namespaces that got new names. -/
def movedNs : List (String × String) :=
  ("http://cybox.mitre.org/objects#WinDriverObject-2", "http://cybox.mitre.org/objects#WinDriverObject-3") :: oasis

/-- The same name, rightly spelt, or in the namespace that replaced the old one. -/
def Form (q q' : QName) : Prop :=
  q' = q ∨ (q, q') ∈ spelling ∨ ∃ p ∈ movedNs, q.ns = some p.1 ∧ q' = ⟨some p.2, q.name⟩

/-- The same text, up to new list delimiters and corrected terms. -/
inductive Reworded : String → String → Prop
  | same (x : String) : Reworded x x
  | list {x y z : String} {items : List String} : Reworded x y → Items20 y items →
      z.toList = List.intercalate "##comma##".toList (items.map String.toList) → Reworded x z
  | term {x y z : String} : Reworded x y → (y, z) ∈ correctedTerms → Reworded x z

/-- A name that comes from a name in `t`. -/
def NameFrom (t : Node) (q : QName) : Prop := ∃ q0, ((∃ c ∈ t.elems, c.e.tag = q0) ∨ q0 ∈ addedNames) ∧ Form q0 q

/-- A text that comes from a text in `t`, or white space, or `None` for a missing text. -/
def TextFrom (t : Node) (s : Option String) : Prop :=
  ∀ y, s = some y → ∃ x, ((∃ c ∈ t.elems, c.e.text = some x) ∨ BlankText (some x) ∨ x = "None") ∧ Reworded x y

/-- A tail of `t`, or white space. -/
def TailFrom (t : Node) (s : Option String) : Prop := BlankText s ∨ ∃ c ∈ t.elems, c.e.tail = s

/-- An attribute of `t`, an attribute that the steps manage, or, in a forced update, an id from the generator. -/
def AttrFrom (t : Node) (o : Options) (force : Bool) (a : QName × String) : Prop :=
  a.1 ∈ managedNames ∨ (∃ c ∈ t.elems, a ∈ c.e.attrs) ∨ (force = true ∧ a.1 = ⟨none, "id"⟩ ∧ ∃ n i, a.2 = o.newId n i)

/-- An element with name, text, tail and attributes from `t`. -/
def ElemFrom (t : Node) (o : Options) (force : Bool) (e : Elem) : Prop :=
  NameFrom t e.tag ∧ TextFrom t e.text ∧ TailFrom t e.tail ∧ ∀ a ∈ e.attrs, AttrFrom t o force a

/-- The sources that are strings have no markup characters. -/
def SourcesPlain (t : Node) : Prop :=
  ∀ c ∈ t.elems, c.e.tag ∈ sourceTags → ∀ s, c.e.text = some s → ∀ ch ∈ s.toList, ch ∉ ['<', '>', '&', '\r']

/-! ## Helpers -/

/-- What is known of every element on the way; `S` says whether the sources are plain. -/
structure Vouched (S : Prop) (N : QName → Prop) (T L : Option String → Prop) (A : QName × String → Prop) (e : Elem) : Prop where
  name : N e.tag
  text : T e.text
  tail : L e.tail
  attrs : AttrsIn A e
  plain : S → e.tag ∈ sourceTags → ∀ s, e.text = some s → ∀ ch ∈ s.toList, ch ∉ ['<', '>', '&', '\r']

/-- What the predicates have to satisfy. -/
structure Allows (N : QName → Prop) (T L : Option String → Prop) : Prop where
  added : ∀ q ∈ addedNames, N q
  spelt : ∀ p ∈ spelling, N p.1 → N p.2
  moved : ∀ p ∈ movedNs, ∀ n, N ⟨some p.1, n⟩ → N ⟨some p.2, n⟩
  none : T none
  blank : ∀ s, BlankText (some s) → T (some s)
  missing : T (some "None")
  list : ∀ s, T (some s) → T (some (updateListText s))
  term : ∀ p ∈ correctedTerms, T (some p.1) → T (some p.2)
  white : ∀ s, BlankText s → L s

section
variable {S : Prop} {N : QName → Prop} {T L : Option String → Prop} {A : QName × String → Prop}

theorem vouched_same {Ls : List QName} (hL : ∀ x ∈ Ls, x ∈ managedNames) {e e' : Elem} (h : SameData Ls e e') (ht : e'.text = e.text)
    (he : Vouched S N T L A e) : Vouched S N T L A e' :=
  ⟨by rw [h.1]; exact he.name, by rw [ht]; exact he.text, by rw [h.2.2.1]; exact he.tail, attrsIn_filter hL h.2.2.2 he.attrs,
    by rw [h.1, ht]; exact he.plain⟩

theorem vouched_set {e : Elem} {k : QName} {v : String} (hk : k ∈ managedNames) (he : Vouched S N T L A e) : Vouched S N T L A (e.set k v) :=
  ⟨he.name, he.text, he.tail, fun a ha => (mem_attrs_set ha).elim (he.attrs a) (fun h => by subst h; exact Or.inl hk), he.plain⟩

theorem vouched_schemaloc (u : Cls) {t : Node} (ht : t.All (Vouched S N T L A)) : (u.updateSchemalocs t).All (Vouched S N T L A) := by
  rw [updateSchemalocs_eq]
  refine all_edit ht (fun c _ hs => ?_)
  unfold schemalocEdit
  split
  · unfold Cls.updateSchemalocsElem
    split
    · exact hs
    · exact vouched_set (by decide) hs
  · exact hs

theorem vouched_version {m : List (String × String)} {alts : List XAlt} {g : Elem → Elem}
    (hg : ∀ e, Vouched S N T L A e → Vouched S N T L A (g e)) {t : Node} (ht : t.All (Vouched S N T L A)) :
    (t.edit (versionEdit m alts g)).All (Vouched S N T L A) := by
  refine all_edit ht (fun c _ hs => ?_)
  unfold versionEdit
  split
  · exact hg _ hs
  · exact hs

theorem vouched_stixVersions (u : Cls) (i v : String) {t : Node} (ht : t.All (Vouched S N T L A)) :
    (stixUpdateVersions u i v t).All (Vouched S N T L A) := by
  rw [stixVersions_eq]
  refine vouched_version (fun e he => ?_) ht
  unfold setStixVersion
  split <;> exact vouched_set (by decide) he

theorem vouched_201 (e : Elem) (he : Vouched S N T L A e) : Vouched S N T L A (setVersion201 e) := by
  unfold setVersion201
  exact vouched_set (by decide) (vouched_set (by decide) (vouched_set (by decide) he))

theorem vouched_listElem (hA : Allows N T L) (e : Elem) (x : Vouched S N T L A e) : Vouched S N T L A (updateListElem e) := by
  obtain ⟨h1, _, h3, h4⟩ := updateListElem_keeps e
  refine ⟨by rw [h1]; exact x.name, ?_, by rw [h4]; exact x.tail, by unfold AttrsIn; rw [h3]; exact x.attrs, ?_⟩
  · rw [updateListElem_text]
    have := x.text
    cases h : e.text with
    | none => exact hA.none
    | some s => rw [h] at this; exact hA.list s this
  · rw [h1, updateListElem_text]
    intro hS ht s' hs' ch hch
    cases h : e.text with
    | none => rw [h] at hs'; cases hs'
    | some s =>
      rw [h] at hs'
      simp only [Option.map_some, Option.some.injEq] at hs'
      subst hs'
      simp only [updateListText, pyReplace, String.toList_ofList] at hch
      rcases replaceAux_mem hch with h' | h'
      · rcases replaceAux_mem h' with h' | h'
        · exact x.plain hS ht s h ch h'
        · exact (by decide : ∀ c ∈ "##comma##".toList, c ∉ ['<', '>', '&', '\r']) ch h'
      · exact (by decide : ∀ c ∈ ",".toList, c ∉ ['<', '>', '&', '\r']) ch h'

theorem vouched_iter (hA : Allows N T L) : ∀ (n : Nat) (e : Elem), Vouched S N T L A e → Vouched S N T L A (iter updateListElem n e)
  | 0, _, h => h
  | n + 1, e, h => vouched_listElem hA _ (vouched_iter hA n e h)

theorem vouched_vocab (hA : Allows N T L) {e e' : Elem} (h : VocabElem e e') (he : Vouched S N T L A e) : Vouched S N T L A e' := by
  rcases h.2.2 with h' | ⟨p, hp, h1, h2⟩
  · exact vouched_same vocab_managed h.1 h' he
  · refine ⟨by rw [h.1.1]; exact he.name, ?_, by rw [h.1.2.2.1]; exact he.tail, attrsIn_filter vocab_managed h.1.2.2.2 he.attrs, ?_⟩
    · rw [h2]; exact hA.term p hp (by rw [← h1]; exact he.text)
    · intro _ _ s hs
      rw [h2] at hs
      cases hs
      exact (by decide : ∀ p ∈ correctedTerms, ∀ ch ∈ p.2.toList, ch ∉ ['<', '>', '&', '\r']) p hp

theorem vouched_vocabs (hA : Allows N T L) {b : Bool} {vs : List Vocab} (hv : ∀ v ∈ vs, ∀ p ∈ v.terms, p ∈ correctedTerms) {t t' : Node}
    (h : (if b then updateVocabs vs t else .ok t) = .ok t') (ht : t.All (Vouched S N T L A)) : t'.All (Vouched S N T L A) :=
  rel_all (fun _ _ he => vouched_vocab hA he) (vocabsIf_rel hv h) ht

theorem moved_not_source : ∀ p ∈ movedNs, ∀ q ∈ sourceTags, q.ns ≠ some p.2 := by decide

theorem vouched_ns (hA : Allows N T L) {u : Cls} (hu : ∀ p ∈ u.updateNsMap, p ∈ movedNs) {t : Node} (ht : t.All (Vouched S N T L A)) :
    (u.updateNamespaces [] t).All (Vouched S N T L A) := by
  rw [updateNamespaces_eq]
  refine all_edit ht (fun c _ hs => ?_)
  unfold nsEdit
  split
  · next hn =>
    unfold Cls.nsUpdated at hn
    split at hn
    · cases hn
    · next n hns =>
      obtain ⟨v, hv⟩ := Option.isSome_iff_exists.1 hn
      have hm := hu _ (assoc_mem hv)
      have htag : u.remappedTag c.e.tag = ⟨some v, c.e.tag.name⟩ := by
        simp only [Cls.remappedTag, hns, Option.map_some, hv, Option.getD_some]
      refine ⟨?_, ?_, hA.white _ (fun x hx => by cases hx), hs.attrs, ?_⟩
      · show N (u.remappedTag c.e.tag)
        rw [htag]
        exact hA.moved _ hm _ (by rw [← hns]; exact hs.name)
      · show T (getNodeText c.e c.kids)
        unfold getNodeText
        split
        · exact hA.none
        · exact hs.text
      · intro _ hx
        exact absurd rfl (moved_not_source _ hm _ (show ⟨some v, c.e.tag.name⟩ ∈ sourceTags by rw [← htag]; exact hx))
  · exact hs

/-! ### Fields -/

theorem vouched_new (hA : Allows N T L) {tag : QName} {ks : List Node} (ht : N tag) (h : ∀ k ∈ ks, k.All (Vouched S N T L A)) :
    (newElem tag [] none ks).All (Vouched S N T L A) :=
  ⟨⟨ht, hA.none, hA.white _ (fun x hx => by cases hx), (fun _ h => by cases h), (fun _ _ _ h => by cases h)⟩, alls_iff.2 h⟩

theorem vouched_retag {tag : QName} (hn : N tag) (h : tag ∉ sourceTags) {e : Elem} {ks : List Node}
    (he : (Node.elem e ks).All (Vouched S N T L A)) : (Node.elem { e with tag := tag } ks).All (Vouched S N T L A) :=
  ⟨⟨hn, he.1.text, he.1.tail, he.1.attrs, fun _ hs => absurd hs h⟩, he.2⟩

theorem vouched_value (hA : Allows N T L) {n : String} (hX : XName.resolve Tables.cybox201_nsmap ⟨"HTTPSessionObj", n⟩ ∉ sourceTags)
    {t t' : Node} (h : (⟨[rel "HTTPSessionObj" n], Tables.cybox201_nsmap, .value (some ⟨"URIObj", "Value"⟩) none true []⟩ : Trans).translate t
      = .ok t') (ht : t.All (Vouched S N T L A)) : t'.All (Vouched S N T L A) := by
  rw [translate_value_eq] at h
  refine all_custom h ht (fun c nn hs hc hn => ?_)
  rw [rel_selects] at hs
  unfold translateValue valueNode at hn
  simp only at hn
  cases hf : (childCtxs c 0 c.kids).find? (fun k => decide (k.e.tag = XName.resolve Tables.cybox201_nsmap ⟨"URIObj", "Value"⟩)) with
  | none => rw [hf] at hn; cases hn
  | some k =>
    rw [hf] at hn
    simp only [Except.ok.injEq] at hn
    obtain ⟨i, j1, _, _⟩ := find_childCtxs (p := fun e => decide (e.tag = XName.resolve Tables.cybox201_nsmap ⟨"URIObj", "Value"⟩)) hf
    have hk : Vouched S N T L A k.e := (alls_iff.1 hc.2 _ (List.mem_of_getElem? j1)).1
    subst hn
    refine ⟨⟨hc.1.name, hk.text, hA.white _ (fun x hx => by cases hx), fun a ha => ?_, fun _ hsrc => ?_⟩, trivial⟩
    · exact (mem_updateAll ha).elim (fun h => by cases h) (hk.attrs a)
    · exact absurd (show c.e.tag ∈ sourceTags from hsrc) (by rw [hs.2]; exact hX)

theorem vouched_refresh (hA : Allows N T L) {t t' : Node} (h : transRefresh.translate t = .ok t') (ht : t.All (Vouched S N T L A)) :
    t'.All (Vouched S N T L A) := by
  unfold transRefresh at h
  rw [translate_value_eq] at h
  refine all_custom h ht (fun c n hs hc hn => ?_)
  simp only [translateValue, valueNode, Except.ok.injEq] at hn
  subst hn
  refine ⟨⟨hc.1.name, hc.1.text, hA.white _ (fun x hx => by cases hx), fun a ha => ?_, hc.1.plain⟩, trivial⟩
  simp only [overrideAttrs] at ha
  split at ha
  · rcases mem_attrs_set ha with ha | ha
    · exact (mem_updateAll ha).elim (fun h => by cases h) (hc.1.attrs a)
    · subst ha; exact Or.inl (by decide)
  · exact (mem_updateAll ha).elim (fun h => by cases h) (hc.1.attrs a)

theorem vouched_renamed (hA : Allows N T L) {p n : String} {m : List (String × String)} {tag : QName}
    (h1 : (XName.resolve m ⟨p, n⟩, tag) ∈ spelling) (h2 : tag ∉ sourceTags) {t t' : Node}
    (h : (⟨[rel p n], m, .renamed tag⟩ : Trans).translate t = .ok t') (ht : t.All (Vouched S N T L A)) : t'.All (Vouched S N T L A) := by
  rw [translate_renamed] at h
  cases h
  refine all_edit ht (fun c _ hs => ?_)
  unfold renBelow ren1
  split
  · exact hs
  · dsimp only
    split
    · next e => exact ⟨hA.spelt _ h1 (by rw [← e]; exact hs.name), hs.text, hs.tail, hs.attrs, fun _ hsrc => absurd hsrc h2⟩
    · exact ⟨hs.name, hs.text, hs.tail, hs.attrs, hs.plain⟩

theorem vouched_mailslot {t t' : Node} (h : transMailslot.translate t = .ok t') (ht : t.All (Vouched S N T L A)) :
    t'.All (Vouched S N T L A) := by
  refine ((translate_parent h).mono (Q' := fun c x => (c.anc ≠ [] ∧ c.e.tag = XName.resolve Tables.cybox201_nsmap ⟨"WinMailslotObj", "Handle"⟩) ∧
    ∃ e ks, Node.elem e ks ∈ c.kids ∧ x = .elem { e with tag := ⟨some nsWinMailslot, "Handle"⟩ } ks) (fun _ _ => Iff.rfl)
    (fun _ _ _ h1 ⟨e, ks, h2, _, h3⟩ => ⟨⟨h1.1, h1.2.1⟩, e, ks, h2, h3⟩)).all ht ?_
  rintro c n hc ⟨⟨_, hsel⟩, e, ks, hk, rfl⟩
  have hname := hc.1.name
  refine vouched_retag ?_ (by decide) (alls_iff.1 hc.2 _ hk)
  rw [show (⟨some nsWinMailslot, "Handle"⟩ : QName) = XName.resolve Tables.cybox201_nsmap ⟨"WinMailslotObj", "Handle"⟩ by decide +kernel, ← hsel]
  exact hname

theorem vouched_fields201 (hA : Allows N T L) {t t' : Node} (h : translateFields cybox201Translatable t = .ok t')
    (ht : t.All (Vouched S N T L A)) : t'.All (Vouched S N T L A) := by
  refine keep_translateFields (P := fun t => t.All (Vouched S N T L A)) ?_ h ht
  intro f hf a b hab ha
  simp only [cybox201Translatable, List.mem_cons, List.not_mem_nil, or_false] at hf
  rcases hf with rfl | rfl | rfl | rfl | rfl | rfl | rfl | rfl
  · exact vouched_value hA (by decide +kernel) hab ha
  · exact vouched_value hA (by decide +kernel) hab ha
  · exact vouched_refresh hA hab ha
  · exact vouched_renamed hA (by decide +kernel) (by decide) hab ha
  · exact vouched_renamed hA (by decide +kernel) (by decide) hab ha
  · exact vouched_renamed hA (by decide +kernel) (by decide) hab ha
  · exact vouched_renamed hA (by decide +kernel) (by decide) hab ha
  · exact vouched_mailslot hab ha

theorem vouched_fields101 (hA : Allows N T L) {w : World} {t t' : Node} (h : translateFields (stix101Cls w).translatable t = .ok t')
    (ht : t.All (Vouched S N T L A)) : t'.All (Vouched S N T L A) := by
  have h' : translateFields [transContributors, transExploitTargets] t = .ok t' := h
  refine keep_translateFields (P := fun t => t.All (Vouched S N T L A)) ?_ h' ht
  intro f hf a b hab ha
  simp only [List.mem_cons, List.not_mem_nil, or_false] at hf
  rcases hf with rfl | rfl
  · refine all_custom hab ha (fun c n _ hc hn => ?_)
    unfold translateContributors at hn
    split at hn
    · cases hn
    · next ks hks =>
      cases hn
      refine vouched_new hA (hA.added _ (by decide)) (fun k hk => ?_)
      obtain ⟨x, hx, hxk⟩ := mapE_mem hks k hk
      cases x with
      | other _ _ => cases hxk
      | elem e es =>
        cases hxk
        refine vouched_new hA (hA.added _ (by decide)) (fun k' hk' => ?_)
        simp only [List.mem_singleton] at hk'
        subst hk'
        exact vouched_retag (hA.added _ (by decide)) (by decide) (alls_iff.1 hc.2 _ hx)
  · refine all_custom hab ha (fun c n _ hc hn => ?_)
    cases hn
    refine vouched_new hA (hA.added _ (by decide)) (fun k hk => ?_)
    simp only [List.mem_singleton] at hk
    subst hk
    exact hc

theorem vouched_format (hA : Allows N T L) {s : Option String} (h : T s) : T (some (formatText s)) := by
  cases s with
  | none => exact hA.missing
  | some x => exact h

theorem vouched_source (hA : Allows N T L) (hS : S) {alts : List XAlt} {m : List (String × String)} {tag : QName} {d d' : NsMap}
    {g : Ctx → Except Err Node} (hg : ∀ c, xmlPlain (formatText c.e.text) = true → g c = .ok (sourceNode tag d d' (formatText c.e.text)))
    (hs : ∀ a ∈ alts, a.tag.resolve m = tag) (htag : tag ∈ sourceTags) {t t' : Node}
    (h : (⟨alts, m, .custom g⟩ : Trans).translate t = .ok t') (ht : t.All (Vouched S N T L A)) : t'.All (Vouched S N T L A) := by
  refine all_custom h ht (fun c n hsel hc hn => ?_)
  have he : c.e.tag = tag := by
    obtain ⟨a, ha, hc⟩ := List.any_eq_true.1 hsel
    unfold XAlt.selects at hc
    simp only [Bool.and_eq_true, decide_eq_true_eq] at hc
    rw [hc.1.1]; exact hs a ha
  have hp := plain_text (hc.1.plain hS (by rw [he]; exact htag))
  rw [hg c hp.1] at hn
  cases hn
  have white : ∀ s : String, (∀ ch ∈ s.toList, ch ∉ ['<', '>', '&', '\r']) → ∀ x, some s = some x →
      ∀ ch ∈ x.toList, ch ∉ ['<', '>', '&', '\r'] := fun s h x e => by cases e; exact h
  have none : ∀ a ∈ ([] : Attrs), a.1 ∈ managedNames ∨ A a := fun _ h => by cases h
  have n1 : N ⟨some nsCommon, "Identity"⟩ := hA.added _ (by decide)
  have n2 : N ⟨some nsCommon, "Name"⟩ := hA.added _ (by decide)
  have b1 : BlankText (some "\n        ") := by unfold BlankText; decide
  have b2 : BlankText (some "\n            ") := by unfold BlankText; decide
  have b3 : BlankText (some "\n                ") := by unfold BlankText; decide
  exact ⟨⟨by rw [← he]; exact hc.1.name, hA.blank _ b2, hA.white _ (fun x hx => by cases hx), none, fun _ _ => white _ (by decide)⟩,
    ⟨⟨n1, hA.blank _ b3, hA.white _ b1, none, fun _ _ => white _ (by decide)⟩,
      ⟨⟨n2, vouched_format hA hc.1.text, hA.white _ b2, none, fun _ _ => white _ hp.2⟩, trivial⟩, trivial⟩, trivial⟩

theorem vouched_fields11 (hA : Allows N T L) (hS : S) {w : World} {t t' : Node} (h : translateFields (stix11Cls w).translatable t = .ok t')
    (ht : t.All (Vouched S N T L A)) : t'.All (Vouched S N T L A) := by
  have h' : translateFields [transCommonSource w, transSightingsSource w, transRelatedCampaign] t = .ok t' := h
  refine keep_translateFields (P := fun t => t.All (Vouched S N T L A)) ?_ h' ht
  intro f hf a b hab ha
  simp only [List.mem_cons, List.not_mem_nil, or_false] at hf
  rcases hf with rfl | rfl | rfl
  · exact vouched_source hA hS (g := translateCommonSource w) (tag := ⟨some nsCommon, "Source"⟩) (d := [(some "stixCommon", nsCommon)]) (d' := [])
      (fun c hc => by unfold translateCommonSource; simp only [hc, if_true]) (by decide +kernel) (by decide) hab ha
  · exact vouched_source hA hS (g := translateSightingSource w) (tag := ⟨some nsIndicator, "Source"⟩) (d := [(some "indicator", nsIndicator)])
      (d' := [(some "stixCommon", nsCommon)]) (fun c hc => by unfold translateSightingSource; simp only [hc, if_true])
      (by decide +kernel) (by decide) hab ha
  · refine all_custom hab ha (fun c n hsel hc hn => ?_)
    have he : c.e.tag = ⟨some nsIndicator, "Related_Campaign"⟩ := by
      obtain ⟨a, ha, hc⟩ := List.any_eq_true.1 hsel
      unfold XAlt.selects at hc
      simp only [Bool.and_eq_true, decide_eq_true_eq] at hc
      rw [List.mem_singleton] at ha
      subst ha
      rw [hc.1.1]
      decide +kernel
    cases hn
    refine vouched_new hA (by rw [← he]; exact hc.1.name) (fun k hk => ?_)
    simp only [List.mem_singleton] at hk
    subst hk
    exact vouched_retag (hA.added _ (by decide)) (by decide) hc

/-! ### Steps -/

theorem vouched_update20 (hA : Allows N T L) {n : List (String × String)} {sel : List XAlt} {o : Options} {t t' : Node}
    (h : cybox20Update (cybox20Cls n sel) o t = .ok t') (ht : t.All (Vouched S N T L A)) : t'.All (Vouched S N T L A) := by
  simp only [cybox20Update] at h
  rw [cybox20Versions_eq, updateLists_eq] at h
  refine vouched_vocabs hA (by simp only [cybox20Cls]; decide) h ?_
  exact all_edit (vouched_version vouched_201 (vouched_schemaloc _ ht)) (fun c _ hs => vouched_iter hA _ _ hs)

theorem vouched_21 (e : Elem) (he : Vouched S N T L A e) : Vouched S N T L A (setVersion21 e) := by
  have h : Vouched S N T L A ((e.set attrMajor "2").set attrMinor "1") := vouched_set (by decide) (vouched_set (by decide) he)
  exact ⟨h.name, h.text, h.tail, fun a ha => h.attrs a (List.mem_filter.1 ha).1, h.plain⟩

theorem vouched_update201 (hA : Allows N T L) {n : List (String × String)} {sel : List XAlt} {o : Options} {t t' : Node}
    (h : cybox201Update (cybox201Cls n sel) o t = .ok t') (ht : t.All (Vouched S N T L A)) : t'.All (Vouched S N T L A) := by
  simp only [cybox201Update] at h
  rw [cybox201Versions_eq] at h
  split at h
  · cases h
  · next t1 h1 =>
    split at h
    · cases h
    · next t2 h2 =>
      refine all_optionalsIf ?_ h
      refine vouched_vocabs hA (by simp only [cybox201Cls]; decide) h2 (vouched_fields201 hA h1 ?_)
      exact vouched_version vouched_21 (vouched_schemaloc _ (vouched_ns hA (by simp only [cybox201Cls]; decide) ht))

theorem vouched_update (hA : Allows N T L) {w : World} {u : Updater} (hu : Registered w u) (hS : u = stix11 w → S) {o : Options} {t t' : Node}
    (h : u.update o t = .ok t') (ht : t.All (Vouched S N T L A)) : t'.All (Vouched S N T L A) := by
  cases hu with
  | cybox20 => exact vouched_update20 hA h ht
  | cybox201 => exact vouched_update201 hA h ht
  | stix10 =>
    simp only [stix10, stix10Update] at h
    split at h
    · cases h
    · next t1 h1 =>
      rw [updateNamespaces_none (u := stix10Cls) rfl] at h
      exact vouched_vocabs hA (by decide) h (vouched_stixVersions _ _ _ (vouched_schemaloc _ (vouched_update20 hA h1 ht)))
  | stix101 =>
    simp only [stix101, stix101Update] at h
    split at h
    · cases h
    · next t1 h1 =>
      rw [updateNamespaces_none (u := stix101Cls w) rfl] at h
      split at h
      · cases h
      · next t2 h2 =>
        split at h
        · cases h
        · next t3 h3 =>
          refine all_optionalsIf ?_ h
          exact vouched_vocabs hA (by simp only [stix101Cls]; decide) h3
            (vouched_fields101 hA h2 (vouched_stixVersions _ _ _ (vouched_schemaloc _ (vouched_update201 hA h1 ht))))
  | stix11 =>
    simp only [stix11, stix11Update] at h
    split at h
    · cases h
    · next t2 h2 =>
      split at h
      · cases h
      · next t3 h3 =>
        refine all_optionalsIf ?_ h
        exact vouched_vocabs hA (by simp only [stix11Cls]; decide) h3
          (vouched_fields11 hA (hS rfl) h2 (vouched_stixVersions _ _ _ (vouched_schemaloc _ (vouched_schemaloc _ ht))))
  | stix111 =>
    simp only [stix111, stix111Update] at h
    exact vouched_vocabs hA (by decide) h (vouched_stixVersions _ _ _ (vouched_schemaloc _ ht))
  | stix12 =>
    simp only [stix12, stix12Update, Except.ok.injEq] at h
    have h2 := vouched_schemaloc stix12Cls (vouched_ns hA (u := stix12Cls) (by rw [oasis_eq]; exact fun _ h => List.mem_cons_of_mem _ h) ht)
    subst h
    generalize stix12Cls.updateSchemalocs (stix12Cls.updateNamespaces [] t) = x at h2 ⊢
    cases x with
    | other _ _ => exact h2
    | elem e ks => exact ⟨vouched_set (by decide) h2.1, h2.2⟩

theorem vouched_step (hA : Allows N T L) {w : World} {u : Updater} (hu : Registered w u) (hS : u = stix11 w → S) {o : Options} {force : Bool}
    (hG : force = true → ∀ n i, A (⟨none, "id"⟩, o.newId n i)) {k k' : Nat} {t : Node} {r : Result}
    (h : stepUpdate u o force k t = .ok (r, k')) (ht : t.All (Vouched S N T L A)) : r.doc.All (Vouched S N T L A) := by
  simp only [stepUpdate] at h
  split at h
  · next d hd =>
    simp only [tryUpdate] at hd
    cases h
    split at hd
    · cases hd
    · exact vouched_update hA hu hS hd ht
  · split at h
    · next hf =>
      simp only [forceUpdate] at h
      split at h
      · cases h
      · next r1 k1 hc =>
        split at h
        · cases h
        · next d hd =>
          cases h
          obtain ⟨rules, nss, ty, V, hr⟩ := registered_rules hu
          obtain ⟨F, l, ν, n, _, _, h1, h2, h3, _, h5, _⟩ := clean_spec hr hc
          refine vouched_update hA hu hS hd ?_
          rw [h3]
          refine all_pruneCtx _ (all_edit ht (fun c hc hv => ?_))
          by_cases hD : DupAt nss t c
          · rw [h1 c hc hD]
            refine ⟨hv.name, hv.text, hv.tail, fun a ha => ?_, hv.plain⟩
            rcases mem_attrs_set ha with ha | rfl
            · exact hv.attrs a ha
            · rw [(h5 c hc hD).1]
              exact Or.inr (hG (Bool.and_eq_true _ _ ▸ hf).2 _ _)
          · rw [h2 c hc hD]; exact hv
    · cases h

end

/-! ### The predicates -/

theorem spelling_moved : (∀ p ∈ spelling, p.2 ∉ spelling.map (·.1)) ∧ (∀ p ∈ spelling, ∀ q ∈ movedNs, p.1.ns ≠ some q.2 ∧ p.2.ns ≠ some q.1) ∧
    ∀ p ∈ movedNs, ∀ q ∈ movedNs, p.2 ≠ q.1 := by decide +kernel

theorem from_allows (t : Node) : Allows (NameFrom t) (TextFrom t) (TailFrom t) where
  added := fun q hq => ⟨q, Or.inr hq, Or.inl rfl⟩
  spelt := by
    rintro p hp ⟨q, hq, h⟩
    refine ⟨q, hq, ?_⟩
    rcases h with h | h | ⟨m, hm, _, h⟩
    · exact Or.inr (Or.inl (by rw [← h]; exact hp))
    · exact absurd (List.mem_map_of_mem (f := Prod.fst) hp) (spelling_moved.1 _ h)
    · exact absurd (congrArg QName.ns h) (spelling_moved.2.1 p hp m hm).1
  moved := by
    rintro p hp n ⟨q, hq, h⟩
    refine ⟨q, hq, ?_⟩
    rcases h with h | h | ⟨m, hm, _, h⟩
    · subst h; exact Or.inr (Or.inr ⟨p, hp, rfl, rfl⟩)
    · exact absurd rfl (spelling_moved.2.1 _ h p hp).2
    · exact absurd (Option.some.inj (congrArg QName.ns h)).symm (spelling_moved.2.2 m hm p hp)
  none := fun _ h => by cases h
  blank := fun s h y e => by cases e; exact ⟨s, Or.inr (Or.inl h), .same s⟩
  missing := fun y e => by cases e; exact ⟨"None", Or.inr (Or.inr rfl), .same _⟩
  list := by
    intro s h y e
    cases e
    obtain ⟨x, hx, hr⟩ := h s rfl
    obtain ⟨items, hi⟩ := (items_exist s).1
    exact ⟨x, hx, .list hr hi (listText_eq hi)⟩
  term := by
    intro p hp h y e
    cases e
    obtain ⟨x, hx, hr⟩ := h p.1 rfl
    exact ⟨x, hx, .term hr hp⟩
  white := fun s h => Or.inl h

/-- The attributes of `t`, and new ids. -/
def KnownAttr (t : Node) (o : Options) (force : Bool) (a : QName × String) : Prop :=
  (∃ c ∈ t.elems, a ∈ c.e.attrs) ∨ (force = true ∧ a.1 = ⟨none, "id"⟩ ∧ ∃ n i, a.2 = o.newId n i)

theorem vouched_self {S : Prop} {t : Node} (h : S → SourcesPlain t) (o : Options) (force : Bool) :
    t.All (Vouched S (NameFrom t) (TextFrom t) (TailFrom t) (KnownAttr t o force)) :=
  all_elems.2 (fun c hc => ⟨⟨_, Or.inl ⟨c, hc, rfl⟩, Or.inl rfl⟩, fun y hy => ⟨y, Or.inl ⟨c, hc, hy⟩, .same y⟩, Or.inr ⟨c, hc, rfl⟩,
    fun _ ha => Or.inr (Or.inl ⟨c, hc, ha⟩), fun hS => h hS c hc⟩)

theorem vouched_chain {S : Prop} {w : World} {t : Node} {reg : List (String × Updater)} (hreg : ∀ v u, assoc reg v = some u → Registered w u ∧ (u = stix11 w → S))
    (hp : S → SourcesPlain t) {vs : List String} {f g : Option String} {o : Options} {force : Bool} {k k' : Nat} {r : Result}
    (h : runChain vs reg t f g o force k = .ok (r, k')) : ∀ c ∈ r.doc.elems, ElemFrom t o force c.e := by
  simp only [runChain] at h
  split at h
  · cases h
  · have key := chain_done (fun _ d => d.All (Vouched S (NameFrom t) (TextFrom t) (TailFrom t) (KnownAttr t o force))) _ [] _ r k k' h
      (vouched_self hp o force) (fun _ v _ u _ _ _ _ _ hu hs hi =>
        vouched_step (from_allows t) (hreg v u hu).1 (hreg v u hu).2 (fun hf n i => Or.inr ⟨hf, rfl, n, i, rfl⟩) hs hi)
    intro c hc
    have := all_elems.1 key c hc
    exact ⟨this.name, this.text, this.tail, this.attrs⟩

theorem cybox_not_stix11 {w : World} {v : String} {u : Updater} (h : assoc cyboxUpdaters v = some u) : u ≠ stix11 w := by
  rintro rfl
  have hv : ("1.1" : String) ∈ cyboxUpdaters.map (fun p => p.2.cls.version) :=
    List.mem_map.2 ⟨(v, stix11 w), assoc_mem h, rfl⟩
  exact absurd hv (by decide +kernel)

/-! ## C57 -/

/-- C57: in the result of a whole update, forced or not, every name, every text and every tail, and every attribute that the steps
do not manage, comes from the source.  Partial: the sources that are strings must have no markup characters, see
`C57_injection_fails`. -/
theorem C57_stix_partial (w : World) (t : Node) (hp : SourcesPlain t) (from_ to_ : Option String) (o : Options) (force : Bool) (k k' : Nat)
    (r : Result) (h : stixUpdate w t from_ to_ o force k = .ok (r, k')) : ∀ c ∈ r.doc.elems, ElemFrom t o force c.e := by
  simp only [stixUpdate] at h
  exact vouched_chain (S := True) (fun v u hu => ⟨registered_stix hu, fun _ => trivial⟩) (fun _ => hp) h

/-- C57 for CybOX documents. -/
theorem C57_cybox (t : Node) (from_ to_ : Option String) (o : Options) (force : Bool) (k k' : Nat) (r : Result)
    (h : cyboxUpdate t from_ to_ o force k = .ok (r, k')) : ∀ c ∈ r.doc.elems, ElemFrom t o force c.e := by
  simp only [cyboxUpdate] at h
  split at h
  · cases h
  · exact vouched_chain (S := False) (w := w0) (fun v u hu => ⟨registered_cybox hu, fun e => absurd e (cybox_not_stix11 hu)⟩) (fun h => h.elim) h

/-! ### Cases that meet the hypotheses -/

/-- A 1.0 package with a list, a misspelt name, a list of contributors and a driver. -/
def docOrigins : Node :=
  stixDoc "1.0" [el nsCommon "Contributors" [] [el nsCommon "Contributor" [at_ "id" "a"] [] (some "me")],
    el nsCyboxCore "Object" [] [el nsCyboxCore "Properties" []
      [el "http://cybox.mitre.org/objects#PacketObject-2" "Protol_Addr_Size" [] [] (some "1,2")]],
    el "http://cybox.mitre.org/objects#WinDriverObject-2" "Name"]

example : SourcesPlain docOrigins ∧ ∃ r, stixUpdate w0 docOrigins none (some "1.1") o0 false 0 = .ok r ∧
    r.1.doc.elems.map (fun c => (c.e.tag.name, c.e.text)) =
      [("STIX_Package", none), ("Contributing_Sources", none), ("Source", none), ("Identity", some "me"), ("Object", none),
        ("Properties", none), ("Proto_Addr_Size", some "1##comma##2"), ("Name", none)] ∧
    r.1.doc.elems.map (fun c => c.e.get? ⟨none, "id"⟩) = [none, none, none, some "a", none, none, none, none] :=
  ⟨by unfold SourcesPlain; decide +kernel, ok_of_eval (by decide +kernel)⟩

/-- A CybOX 2.0.1 document with two observables of one id and a field with a URI value. -/
def docOrigins2 : Node :=
  cyboxDoc v201 [el nsCyboxCore "Observable" [at_ "id" "a"], el nsCyboxCore "Observable" [at_ "id" "a"],
    el "http://cybox.mitre.org/objects#HTTPSessionObject-2" "DNT" []
      [el "http://cybox.mitre.org/objects#URIObject-2" "Value" [] [] (some "1")]]

example : (stepUpdate cybox201 o0 false 0 docOrigins2).isOk = false ∧ ∃ r, cyboxUpdate docOrigins2 none none o0 true 0 = .ok r ∧
    r.1.doc.elems.map (fun c => (c.e.tag.name, c.e.text)) =
      [("Observables", none), ("Observable", none), ("Observable", none), ("DNT", some "1")] ∧
    (r.1.doc.elems.filterMap (fun c => c.e.get? ⟨none, "id"⟩)).Nodup :=
  ⟨by decide +kernel, ok_of_eval (by decide +kernel)⟩

/-! ### Where it fails -/

/-- A 1.1 package with markup in a source (in the file `&lt;e xmlns="urn:x"/&gt;`). -/
def docInjection : Node := stixDoc "1.1" [el nsTTP "Intended_Effect" [] [el nsCommon "Source" [] [] (some "<e xmlns=\"urn:x\"/>")]]

/-- A parser that reads the XML text made of it as any XML parser does. -/
def injectedWorld : World :=
  { w0 with
    parseXml := fun s => if s = "\n        <stixCommon:Source xmlns:stixCommon=\"http://stix.mitre.org/common-1\">\n            <stixCommon:Identity>\n                <stixCommon:Name><e xmlns=\"urn:x\"/></stixCommon:Name>\n            </stixCommon:Identity>\n        </stixCommon:Source>\n        "
      then some (.elem ⟨⟨some nsCommon, "Source"⟩, [(some "stixCommon", nsCommon)], [], some "\n            ", none⟩
        [.elem ⟨⟨some nsCommon, "Identity"⟩, [], [], some "\n                ", some "\n        "⟩
          [.elem ⟨⟨some nsCommon, "Name"⟩, [], [], none, some "\n            "⟩ [.elem ⟨⟨some "urn:x", "e"⟩, [(none, "urn:x")], [], none, none⟩ []]]])
      else none }

/-- C57, negation: markup in a source that is a string becomes an element of the result. -/
theorem C57_injection_fails : inForce none (stixRootVersion docInjection) = some "1.1" ∧
    ∃ r k, stixUpdate injectedWorld docInjection none (some "1.1.1") o0 false 0 = .ok (r, k) ∧ ∃ c ∈ r.doc.elems,
      c.e.tag = ⟨some "urn:x", "e"⟩ ∧ ¬ ElemFrom docInjection o0 false c.e := by
  refine ⟨by decide +kernel, ?_⟩
  have h : ∃ r, stixUpdate injectedWorld docInjection none (some "1.1.1") o0 false 0 = .ok r ∧
      ∃ c ∈ r.1.doc.elems, c.e.tag = ⟨some "urn:x", "e"⟩ := ok_of_eval (by decide +kernel)
  obtain ⟨⟨r, k⟩, h1, c, hc, ht⟩ := h
  refine ⟨r, k, h1, c, hc, ht, ?_⟩
  rintro ⟨⟨q, hq, hf⟩, _⟩
  rw [ht] at hf
  have h0 : q = ⟨some "urn:x", "e"⟩ := by
    rcases hf with hf | hf | ⟨p, hp, _, hf⟩
    · exact hf.symm
    · exact absurd (List.mem_map_of_mem (f := Prod.snd) hf) (show (⟨some "urn:x", "e"⟩ : QName) ∉ spelling.map Prod.snd by decide)
    · exact absurd (Option.some.inj (congrArg QName.ns hf)).symm ((by decide : ∀ p ∈ movedNs, p.2 ≠ "urn:x") p hp)
  subst h0
  rcases hq with ⟨d, hd, hq⟩ | hq
  · exact absurd hq ((by decide +kernel : ∀ d ∈ docInjection.elems, d.e.tag ≠ ⟨some "urn:x", "e"⟩) d hd)
  · exact absurd hq (by decide)

end Ramrod

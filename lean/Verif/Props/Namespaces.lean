import Verif.Lemmas.Nested
import Verif.Props.Fields
import Verif.Props.SchemaLoc
/-!
# Renaming of namespaces: C25, C26, C35
-/

namespace Ramrod

open Samples

/-! ## Statement -/

/-- The namespaces that STIX 1.2.1 renames, with their new names. -/
def oasis : List (String × String) :=
  [ ("http://stix.mitre.org/stix-1",
      "http://docs.oasis-open.org/cti/ns/stix/core-1"),
    ("http://stix.mitre.org/common-1",
      "http://docs.oasis-open.org/cti/ns/stix/common-1"),
    ("http://stix.mitre.org/default_vocabularies-1",
      "http://docs.oasis-open.org/cti/ns/stix/vocabularies-1"),
    ("http://stix.mitre.org/Campaign-1",
      "http://docs.oasis-open.org/cti/ns/stix/campaign-1"),
    ("http://stix.mitre.org/CourseOfAction-1",
      "http://docs.oasis-open.org/cti/ns/stix/course-of-action-1"),
    ("http://data-marking.mitre.org/Marking-1",
      "http://docs.oasis-open.org/cti/ns/stix/data-marking-1"),
    ("http://stix.mitre.org/ExploitTarget-1",
      "http://docs.oasis-open.org/cti/ns/stix/exploit-target-1"),
    ("http://stix.mitre.org/Incident-1",
      "http://docs.oasis-open.org/cti/ns/stix/incident-1"),
    ("http://stix.mitre.org/Indicator-2",
      "http://docs.oasis-open.org/cti/ns/stix/indicator-1"),
    ("http://stix.mitre.org/Report-1",
      "http://docs.oasis-open.org/cti/ns/stix/report-1"),
    ("http://stix.mitre.org/ThreatActor-1",
      "http://docs.oasis-open.org/cti/ns/stix/threat-actor-1"),
    ("http://stix.mitre.org/TTP-1",
      "http://docs.oasis-open.org/cti/ns/stix/ttp-1"),
    ("http://stix.mitre.org/extensions/Address#CIQAddress3.0-1",
      "http://docs.oasis-open.org/cti/ns/stix/extensions/address/ciq-address-3.0-1"),
    ("http://stix.mitre.org/extensions/AP#CAPEC2.7-1",
      "http://docs.oasis-open.org/cti/ns/stix/extensions/attack-pattern/capec-2.7-1"),
    ("http://stix.mitre.org/extensions/Identity#CIQIdentity3.0-1",
      "http://docs.oasis-open.org/cti/ns/stix/extensions/identity/ciq-3.0-identity-1"),
    ("http://stix.mitre.org/extensions/Malware#MAEC4.1-1",
      "http://docs.oasis-open.org/cti/ns/stix/extensions/malware/maec-4.1-1"),
    ("http://data-marking.mitre.org/extensions/MarkingStructure#Simple-1",
      "http://docs.oasis-open.org/cti/ns/stix/extensions/data-marking/simple-1"),
    ("http://data-marking.mitre.org/extensions/MarkingStructure#Terms_Of_Use-1",
      "http://docs.oasis-open.org/cti/ns/stix/extensions/data-marking/terms-of-use-1"),
    ("http://data-marking.mitre.org/extensions/MarkingStructure#TLP-1",
      "http://docs.oasis-open.org/cti/ns/stix/extensions/data-marking/tlp-1"),
    ("http://stix.mitre.org/extensions/StructuredCOA#Generic-1",
      "http://docs.oasis-open.org/cti/ns/stix/extensions/structured-coa/generic-1"),
    ("http://stix.mitre.org/extensions/TestMechanism#Generic-1",
      "http://docs.oasis-open.org/cti/ns/stix/extensions/test-mechanism/generic-1"),
    ("http://stix.mitre.org/extensions/TestMechanism#OpenIOC2010-1",
      "http://docs.oasis-open.org/cti/ns/stix/extensions/test-mechanism/openioc-2010-1"),
    ("http://stix.mitre.org/extensions/TestMechanism#OVAL5.10-1",
      "http://docs.oasis-open.org/cti/ns/stix/extensions/test-mechanism/oval-5.10-1"),
    ("http://stix.mitre.org/extensions/TestMechanism#Snort-1",
      "http://docs.oasis-open.org/cti/ns/stix/extensions/test-mechanism/snort-1"),
    ("http://stix.mitre.org/extensions/TestMechanism#YARA-1",
      "http://docs.oasis-open.org/cti/ns/stix/extensions/test-mechanism/yara-1"),
    ("http://stix.mitre.org/extensions/Vulnerability#CVRF-1",
      "http://docs.oasis-open.org/cti/ns/stix/extensions/test-mechanism/cvrf-1") ]

/-- The new name of a namespace. -/
def newName (R : List (String × String)) (n : String) : String := ((R.find? (fun p => p.1 = n)).map (·.2)).getD n

/-- In a renamed namespace. -/
def OldNs (R : List (String × String)) (q : QName) : Prop := ∃ n ∈ R.map (·.1), q.ns = some n

/-- `e'` is the element of `c` after the renaming: an element in a renamed namespace has the new one, the same local name and
the same attributes, and its text if it has no child nodes; any other element is as before. -/
def NsElem (R : List (String × String)) (c : Ctx) (e' : Elem) : Prop :=
  (¬ OldNs R c.e.tag → e' = c.e) ∧
  (OldNs R c.e.tag → e'.tag = ⟨c.e.tag.ns.map (newName R), c.e.tag.name⟩ ∧ e'.attrs = c.e.attrs ∧
    e'.text = (if c.kids = [] then c.e.text else none) ∧ e'.tail = none)

/-- Two documents that differ at most in the schema location and in the version on the root element. -/
def SameBelowRoot (s t' : Node) : Prop :=
  s = t' ∨ ∃ e e' ks, s = .elem e ks ∧ t' = .elem e' ks ∧ e'.text = e.text ∧
    SameData [⟨some "http://www.w3.org/2001/XMLSchema-instance", "schemaLocation"⟩, ⟨none, "version"⟩] e e'

/-- White space only. -/
def BlankText (s : Option String) : Prop := ∀ x ∈ (s.getD "").toList, isSpace x = true

/-- No mixed content: text beside child nodes and text after an element is white space. -/
def NoMixed (t : Node) : Prop := ∀ c ∈ t.elems, (c.kids ≠ [] → BlankText c.e.text) ∧ BlankText c.e.tail

/-- Renamed namespaces are declared on renamed elements only. -/
def DeclaredOnRenamed (R : List (String × String)) (t : Node) : Prop :=
  ∀ c ∈ t.elems, ¬ OldNs R c.e.tag → ∀ d ∈ c.e.decls, d.2 ∉ R.map (·.1)

/-! ## Helpers -/

theorem find_assoc (R : List (String × String)) (n : String) : (R.find? (fun p => p.1 = n)).map (·.2) = assoc R n := by
  induction R with
  | nil => rfl
  | cons x xs ih =>
    obtain ⟨a, b⟩ := x
    simp only [List.find?_cons, assoc]
    by_cases h : a = n
    · simp [h]
    · simp [h, ih]

theorem newName_eq (R : List (String × String)) (n : String) : newName R n = (assoc R n).getD n := by
  unfold newName; rw [find_assoc]

theorem assoc_isSome {R : List (String × String)} {n : String} : (assoc R n).isSome = true ↔ n ∈ R.map (·.1) := by
  induction R with
  | nil => simp [assoc]
  | cons x xs ih =>
    obtain ⟨a, b⟩ := x
    simp only [assoc, List.map_cons, List.mem_cons]
    by_cases h : a = n
    · simp [h]
    · simp only [h, if_false]; rw [ih]; exact ⟨Or.inr, fun hh => hh.resolve_left (fun e => h e.symm)⟩

theorem newName_other {R : List (String × String)} {n : String} (h : n ∉ R.map (·.1)) : newName R n = n := by
  rw [newName_eq]
  cases ha : assoc R n with
  | none => rfl
  | some v => exact absurd (assoc_isSome.1 (by rw [ha]; rfl)) h

theorem nsUpdated_iff {u : Cls} {q : QName} : u.nsUpdated q = true ↔ OldNs u.updateNsMap q := by
  unfold Cls.nsUpdated OldNs
  cases h : q.ns with
  | none => simp
  | some n =>
    simp only [Option.some.injEq]
    rw [assoc_isSome]
    exact ⟨fun h => ⟨n, h, rfl⟩, fun ⟨m, h, e⟩ => e ▸ h⟩

theorem nsEdit_elem (u : Cls) (c : Ctx) : NsElem u.updateNsMap c (nsEdit u c) := by
  unfold nsEdit
  split
  · next h =>
    refine ⟨fun hn => absurd (nsUpdated_iff.1 h) hn, fun _ => ⟨?_, rfl, ?_, rfl⟩⟩
    · simp only [Cls.updateNsmapElem, Cls.remappedTag]
      congr 2
      funext n
      rw [newName_eq]
    · simp only [Cls.updateNsmapElem, getNodeText]
      cases c.kids <;> simp
  · next h => exact ⟨fun _ => rfl, fun hn => absurd (nsUpdated_iff.2 hn) h⟩

theorem nsMap_append (a b : NsMap) (p : Option String) : NsMap.get? (a ++ b) p = (NsMap.get? a p).or (NsMap.get? b p) := by
  induction a with
  | nil => simp [NsMap.get?]
  | cons x xs ih =>
    obtain ⟨q, v⟩ := x
    simp only [List.cons_append, NsMap.get?]
    split
    · simp
    · exact ih

theorem nsMap_filter (m : NsMap) {q p : Option String} (h : q ≠ p) : NsMap.get? (m.filter (fun x => x.1 ≠ q)) p = NsMap.get? m p := by
  induction m with
  | nil => rfl
  | cons x xs ih =>
    obtain ⟨r, v⟩ := x
    rw [List.filter_cons]
    split
    · simp only [NsMap.get?]; rw [ih]
    · next hr =>
      have hr' : r = q := by simpa using hr
      rw [ih]
      simp only [NsMap.get?]
      rw [if_neg (by rw [hr']; exact h)]

theorem nsMap_dedup (m : NsMap) (p : Option String) : NsMap.get? (NsMap.dedup m) p = NsMap.get? m p := by
  induction m with
  | nil => rfl
  | cons x xs ih =>
    obtain ⟨q, v⟩ := x
    simp only [NsMap.dedup, NsMap.get?]
    split
    · rfl
    · next h => rw [nsMap_filter _ h, ih]

theorem nsMap_map (m : NsMap) (f : String → String) (p : Option String) :
    NsMap.get? (m.map (fun x => (x.1, f x.2))) p = (NsMap.get? m p).map f := by
  induction m with
  | nil => rfl
  | cons x xs ih =>
    obtain ⟨q, v⟩ := x
    simp only [List.map_cons, NsMap.get?]
    split
    · rfl
    · exact ih

theorem remap_get {u : Cls} (hd : u.disallowedNs = []) (env : NsMap) (p : Option String) :
    NsMap.get? (u.remapNamespaces env) p = (NsMap.get? env p).map (newName u.updateNsMap) := by
  unfold Cls.remapNamespaces
  rw [hd, List.filter_eq_self.2 (by simp), nsMap_map (f := fun n => (assoc u.updateNsMap n).getD n), nsMap_dedup]
  congr 1
  funext n
  rw [newName_eq]

/-- The prefixes are bound to the new names. -/
def Renamed (R : List (String × String)) (env env' : NsMap) : Prop :=
  ∀ p, NsMap.get? env' p = (NsMap.get? env p).map (newName R)

theorem renamed_step {u : Cls} (hd : u.disallowedNs = []) {c : Ctx} {env env' : NsMap} (hc : c.env = c.e.decls ++ env)
    (hn : ¬ OldNs u.updateNsMap c.e.tag → ∀ d ∈ c.e.decls, d.2 ∉ u.updateNsMap.map (·.1)) (he : Renamed u.updateNsMap env env') :
    Renamed u.updateNsMap c.env ((nsEdit u c).decls ++ env') := by
  intro p
  rw [nsMap_append, he p, hc]
  unfold nsEdit
  split
  · simp only [Cls.updateNsmapElem]
    rw [remap_get hd, hc, nsMap_append]
    cases NsMap.get? c.e.decls p with
    | some v => rfl
    | none => cases NsMap.get? env p <;> rfl
  · next h =>
    have hn' := hn (fun ho => h (nsUpdated_iff.2 ho))
    rw [nsMap_append]
    cases hg : NsMap.get? c.e.decls p with
    | none => rfl
    | some v =>
      have : ∃ d ∈ c.e.decls, d.2 = v := by
        clear hc hn hn'
        generalize c.e.decls = l at hg
        induction l with
        | nil => cases hg
        | cons x xs ih =>
          obtain ⟨q, w⟩ := x
          simp only [NsMap.get?] at hg
          split at hg
          · cases hg; exact ⟨_, List.mem_cons_self .., rfl⟩
          · obtain ⟨d, h1, h2⟩ := ih hg; exact ⟨d, List.mem_cons_of_mem _ h1, h2⟩
      obtain ⟨d, hd1, rfl⟩ := this
      simp only [Option.some_or, Option.map_some]
      rw [newName_other (hn' d hd1)]

mutual
theorem renamed_walk {u : Cls} (hd : u.disallowedNs = []) {pos : Pos} {env env' : NsMap} {anc anc' : List QName} : ∀ (t : Node),
    (∀ c ∈ t.walk pos env anc, ¬ OldNs u.updateNsMap c.e.tag → ∀ d ∈ c.e.decls, d.2 ∉ u.updateNsMap.map (·.1)) →
    Renamed u.updateNsMap env env' → ∀ c' ∈ (t.mapCtx (nsEdit u) pos env anc).walk pos env' anc', ∃ c ∈ t.walk pos env anc,
      c'.pos = c.pos ∧ c'.e = nsEdit u c ∧ Renamed u.updateNsMap c.env c'.env
  | .other _ _, _, _, c', hc => by simp [Node.mapCtx, Node.walk] at hc
  | .elem e ks, hn, he, c', hc => by
    have hs := renamed_step hd (c := ⟨pos, e.decls ++ env, anc, e, ks⟩) rfl (hn _ (by simp [Node.walk])) he
    simp only [Node.mapCtx, Node.walk, List.mem_cons] at hc
    rcases hc with rfl | hc
    · exact ⟨⟨pos, e.decls ++ env, anc, e, ks⟩, by simp [Node.walk], rfl, rfl, hs⟩
    · obtain ⟨c, h1, h2⟩ := renamed_walks hd ks (fun c hc => hn c (by simp [Node.walk, hc])) hs c' hc
      exact ⟨c, by simp [Node.walk, h1], h2⟩
theorem renamed_walks {u : Cls} (hd : u.disallowedNs = []) {pos : Pos} {i : Nat} {env env' : NsMap} {anc anc' : List QName} :
    ∀ (ks : List Node),
    (∀ c ∈ Node.walks pos i env anc ks, ¬ OldNs u.updateNsMap c.e.tag → ∀ d ∈ c.e.decls, d.2 ∉ u.updateNsMap.map (·.1)) →
    Renamed u.updateNsMap env env' → ∀ c' ∈ Node.walks pos i env' anc' (Node.mapCtxs (nsEdit u) pos i env anc ks),
      ∃ c ∈ Node.walks pos i env anc ks, c'.pos = c.pos ∧ c'.e = nsEdit u c ∧ Renamed u.updateNsMap c.env c'.env
  | [], _, _, c', hc => by simp [Node.mapCtxs, Node.walks] at hc
  | k :: ks, hn, he, c', hc => by
    simp only [Node.mapCtxs, Node.walks, List.mem_append] at hc
    rcases hc with hc | hc
    · obtain ⟨c, h1, h2⟩ := renamed_walk hd k (fun c hc => hn c (by simp [Node.walks, hc])) he c' hc
      exact ⟨c, by simp [Node.walks, h1], h2⟩
    · obtain ⟨c, h1, h2⟩ := renamed_walks hd ks (fun c hc => hn c (by simp [Node.walks, hc])) he c' hc
      exact ⟨c, by simp [Node.walks, h1], h2⟩
end

theorem filter_blank {s : Option String} (h : BlankText s) : (s.getD "").toList.filter (fun c => !isSpace c) = [] := by
  rw [List.filter_eq_nil_iff]
  intro x hx
  simp [h x hx]

mutual
theorem ink_walk {u : Cls} {pos : Pos} {env : NsMap} {anc : List QName} : ∀ (t : Node),
    (∀ c ∈ t.walk pos env anc, (c.kids ≠ [] → BlankText c.e.text) ∧ BlankText c.e.tail) →
    (t.mapCtx (nsEdit u) pos env anc).ink = t.ink
  | .other _ _, _ => by simp [Node.mapCtx]
  | .elem e ks, h => by
    have h0 := h ⟨pos, e.decls ++ env, anc, e, ks⟩ (by simp [Node.walk])
    have ih := inks_walks (u := u) (pos := pos) (i := 0) (env := e.decls ++ env) (anc := e.tag :: anc) ks
      (fun c hc => h c (by simp [Node.walk, hc]))
    simp only [Node.mapCtx, Node.ink, Node.chars, List.filter_append] at ih ⊢
    rw [ih, filter_blank h0.2]
    have hx := nsEdit_elem u ⟨pos, e.decls ++ env, anc, e, ks⟩
    rcases Classical.em (OldNs u.updateNsMap e.tag) with ho | ho
    · obtain ⟨_, _, h3, h4⟩ := hx.2 ho
      rw [h3, h4]
      by_cases hk : ks = []
      · rw [if_pos hk]; rfl
      · rw [if_neg hk, filter_blank (h0.1 hk)]; rfl
    · rw [hx.1 ho, filter_blank h0.2]
theorem inks_walks {u : Cls} {pos : Pos} {i : Nat} {env : NsMap} {anc : List QName} : ∀ (ks : List Node),
    (∀ c ∈ Node.walks pos i env anc ks, (c.kids ≠ [] → BlankText c.e.text) ∧ BlankText c.e.tail) →
    (Node.charss (Node.mapCtxs (nsEdit u) pos i env anc ks)).filter (fun c => !isSpace c) =
      (Node.charss ks).filter (fun c => !isSpace c)
  | [], _ => by simp [Node.mapCtxs]
  | k :: ks, h => by
    have h1 := ink_walk (u := u) (pos := i :: pos) (env := env) (anc := anc) k (fun c hc => h c (by simp [Node.walks, hc]))
    have h2 := inks_walks (u := u) (pos := pos) (i := i + 1) (env := env) (anc := anc) ks (fun c hc => h c (by simp [Node.walks, hc]))
    simp only [Node.ink] at h1
    simp only [Node.mapCtxs, Node.charss, List.filter_append]
    rw [h1, h2]
end

theorem stix12_root {t : Node} :
    SameBelowRoot t (setRootVersion "1.2.1" (stix12Cls.updateSchemalocs t)) := by
  cases t with
  | other _ _ => exact Or.inl rfl
  | elem e ks =>
    refine Or.inr ⟨e, _, ks, rfl, rfl, ?_, ?_⟩
    · simp only [Elem.set, Cls.updateSchemalocsElem]
      split <;> rfl
    · refine SameData.trans ?_ (SameData.set (k := attrVersion) (by decide) _ _)
      unfold Cls.updateSchemalocsElem
      split
      · exact SameData.refl _ _
      · exact SameData.set (k := tagSchemaLoc) (by decide) _ _

/-- An element of a document that differs on the root only. -/
theorem same_below_elems {s t' : Node} (h : SameBelowRoot s t') {c' : Ctx} (hc : c' ∈ t'.elems) : ∃ c ∈ s.elems,
    c'.pos = c.pos ∧ c'.env = c.env ∧ c'.anc = c.anc ∧ c'.kids = c.kids ∧ c'.e.text = c.e.text ∧
    SameData [⟨some "http://www.w3.org/2001/XMLSchema-instance", "schemaLocation"⟩, ⟨none, "version"⟩] c.e c'.e := by
  rcases h with rfl | ⟨e, e', ks, rfl, rfl, ht, hs⟩
  · exact ⟨c', hc, rfl, rfl, rfl, rfl, rfl, SameData.refl _ _⟩
  · simp only [Node.elems, Node.walk, List.mem_cons] at hc ⊢
    rcases hc with rfl | hc
    · exact ⟨_, Or.inl rfl, rfl, by simp [hs.2.1], rfl, rfl, ht, hs⟩
    · rw [hs.1, hs.2.1] at hc
      exact ⟨c', Or.inr hc, rfl, rfl, rfl, rfl, rfl, SameData.refl _ _⟩

theorem attrs_get_filter {L : List QName} {k : QName} (hk : k ∉ L) (as : Attrs) :
    Attrs.get? (as.filter (fun a => decide (a.1 ∉ L))) k = Attrs.get? as k := by
  induction as with
  | nil => rfl
  | cons x xs ih =>
    obtain ⟨q, v⟩ := x
    rw [List.filter_cons]
    split
    · simp only [Attrs.get?]; rw [ih]
    · next h =>
      have hq : q ∈ L := by simpa using h
      rw [ih]
      simp only [Attrs.get?]
      rw [if_neg (fun e : q = k => hk (e ▸ hq))]

theorem sameData_get {L : List QName} {k : QName} (hk : k ∉ L) {e e' : Elem} (h : SameData L e e') : e'.get? k = e.get? k := by
  unfold Elem.get?
  rw [← attrs_get_filter hk, h.2.2.2, attrs_get_filter hk]

theorem oasis_eq : stix12Cls.updateNsMap = oasis := by decide +kernel

/-! ## C25 -/

/-- C25: the 1.2 step renames the namespaces element by element; besides, only the version and the schema location of the root
change; no element is left in a renamed namespace.
Partial: text beside child nodes and text after renamed elements is lost (`C25_mixed_fails`; nothing is lost without such
text: `C25_text_partial`), and declarations on other elements stay (`C25_declaration_fails`; see `C26_partial`). -/
theorem C25_partial (o : Options) (t t' : Node) (h : stix12.update o t = .ok t') :
    (∃ F, (∀ c ∈ t.elems, NsElem oasis c (F c)) ∧ SameBelowRoot (t.edit F) t') ∧
    ∀ c ∈ t'.elems, ¬ OldNs oasis c.e.tag := by
  have h' : stix12Update o t = .ok t' := h
  simp only [stix12Update, Except.ok.injEq, updateNamespaces_eq] at h'
  have hb : SameBelowRoot (t.edit (nsEdit stix12Cls)) t' := h' ▸ stix12_root
  refine ⟨⟨nsEdit stix12Cls, fun c _ => oasis_eq ▸ nsEdit_elem stix12Cls c, hb⟩, ?_⟩
  intro c' hc' ho
  obtain ⟨d, hd, _, _, _, _, _, hs⟩ := same_below_elems hb hc'
  obtain ⟨c, hc, _, he, _⟩ := mem_edit hd
  have hx := nsEdit_elem stix12Cls c
  rw [oasis_eq] at hx
  rw [hs.1, he] at ho
  rcases Classical.em (OldNs oasis c.e.tag) with hold | hold
  · obtain ⟨n, hn, hq⟩ := ho
    obtain ⟨m, hm, hq'⟩ := hold
    rw [(hx.2 ⟨m, hm, hq'⟩).1, hq'] at hq
    simp only [Option.map_some, Option.some.injEq] at hq
    have : ∀ m ∈ oasis.map (·.1), newName oasis m ∉ oasis.map (·.1) := by decide +kernel
    exact this m hm (hq ▸ hn)
  · rw [hx.1 hold] at ho; exact hold ho

/-- C25: without mixed content no character besides white space is lost or changed. -/
theorem C25_text_partial (o : Options) (t t' : Node) (hm : NoMixed t) (h : stix12.update o t = .ok t') : t'.ink = t.ink := by
  have h' : stix12Update o t = .ok t' := h
  simp only [stix12Update, Except.ok.injEq, updateNamespaces_eq] at h'
  have hb : SameBelowRoot (t.edit (nsEdit stix12Cls)) t' := h' ▸ stix12_root
  have hi : (t.edit (nsEdit stix12Cls)).ink = t.ink := ink_walk t hm
  rw [← hi]
  rcases hb with hb | ⟨e, e', ks, h1, h2, h3, h4⟩
  · rw [hb]
  · rw [h1, h2]
    simp only [Node.ink, Node.chars]
    rw [h3, h4.2.2.1]

/-- A 1.2 package with a marking, an observable and a comment, each with text. -/
def docNs : Node :=
  stixDoc "1.2"
    [el nsStix "STIX_Header" [] [el nsStix "Title" [] [] (some "a b")] (some "\n "), .other "c" (some "x"),
     el nsCyboxCore "Observable" [at_ "id" "o"] [el nsCyboxCore "Title" [] [] (some "t")]]

example : NoMixed docNs ∧ ∃ r, stepUpdate stix12 o0 false 0 docNs = .ok r ∧ r.1.doc.ink = docNs.ink ∧
    r.1.doc.elems.map (·.e.tag) =
      [⟨some "http://docs.oasis-open.org/cti/ns/stix/core-1", "STIX_Package"⟩,
        ⟨some "http://docs.oasis-open.org/cti/ns/stix/core-1", "STIX_Header"⟩,
        ⟨some "http://docs.oasis-open.org/cti/ns/stix/core-1", "Title"⟩,
        ⟨some "http://cybox.mitre.org/cybox-2", "Observable"⟩, ⟨some "http://cybox.mitre.org/cybox-2", "Title"⟩] := by
  refine ⟨?_, ok_of_eval (by decide +kernel)⟩
  have : ∀ c ∈ docNs.elems, (c.kids ≠ [] → ∀ x ∈ (c.e.text.getD "").toList, isSpace x = true) ∧
    ∀ x ∈ (c.e.tail.getD "").toList, isSpace x = true := by decide +kernel
  exact this

/-- A 1.2 package with a description that begins with text before an element, and text after that element. -/
def docMixed : Node :=
  stixDoc "1.2" [el nsStix "Title" [] [.elem ⟨⟨some nsStix, "b"⟩, [], [], some "2", some "3"⟩ []] (some "1")]

/-- C25 fails: text beside a child element and text after it is lost. -/
theorem C25_mixed_fails : docMixed.ink = ['1', '2', '3'] ∧ ∃ r, stepUpdate stix12 o0 false 0 docMixed = .ok r ∧
    r.1.doc.ink = ['2'] := ⟨by decide +kernel, ok_of_eval (by decide +kernel)⟩

/-- A 1.2 package with a declaration of the TTP namespace on a CybOX element. -/
def docDecl : Node :=
  stixDoc "1.2" [el nsCyboxCore "Object" [] [] none [(some "t", nsTTP)]]

/-- C25 fails: a declaration of a renamed namespace on an element of another namespace stays as it is. -/
theorem C25_declaration_fails : ∃ r, stepUpdate stix12 o0 false 0 docDecl = .ok r ∧
    r.1.doc.kids = [el nsCyboxCore "Object" [] [] none [(some "t", nsTTP)]] := ok_of_eval (by decide +kernel)

/-! ## C26 -/

/-- C26 for the 1.2 step: if the renamed namespaces are declared on renamed elements only, every prefix, on every element, is
bound to the new name of what it was bound to; so a type in a renamed namespace is in the new one.
Partial: a declaration on another element stays (`C25_declaration_fails`, `C26_stix_fails`); in the CybOX 2.0.1 step the
declaration on the root stays (`C26_cybox_fails`). -/
theorem C26_partial (o : Options) (t t' : Node) (hn : DeclaredOnRenamed oasis t) (h : stix12.update o t = .ok t') :
    ∀ c' ∈ t'.elems, ∃ c ∈ t.elems, c'.pos = c.pos ∧ c'.e.tag.name = c.e.tag.name ∧
      (∀ p, NsMap.get? c'.env p = (NsMap.get? c.env p).map (newName oasis)) ∧
      ∀ p ty ns, c.TypedAs p ty ns → c'.TypedAs p ty (newName oasis ns) := by
  have h' : stix12Update o t = .ok t' := h
  simp only [stix12Update, Except.ok.injEq, updateNamespaces_eq] at h'
  have hb : SameBelowRoot (t.edit (nsEdit stix12Cls)) t' := h' ▸ stix12_root
  intro c' hc'
  obtain ⟨d, hd, h1, h2, _, _, _, hs⟩ := same_below_elems hb hc'
  obtain ⟨c, hc, h3, h4, h5⟩ := renamed_walk (u := stix12Cls) rfl (env := []) (env' := []) t (by rw [oasis_eq]; exact hn)
    (fun _ => rfl) d hd
  rw [oasis_eq] at h5
  have hx := nsEdit_elem stix12Cls c
  have he : ∀ p, NsMap.get? c'.env p = (NsMap.get? c.env p).map (newName oasis) := fun p => by rw [h2]; exact h5 p
  refine ⟨c, hc, h1.trans h3, ?_, he, ?_⟩
  · rw [hs.1, h4]
    rcases Classical.em (OldNs stix12Cls.updateNsMap c.e.tag) with ho | ho
    · rw [(hx.2 ho).1]
    · rw [hx.1 ho]
  · rintro p ty ns ⟨v, hv, hq, hp⟩
    refine ⟨v, ?_, hq, by rw [he, hp]; rfl⟩
    have ha : d.e.attrs = c.e.attrs := by
      rw [h4]
      rcases Classical.em (OldNs stix12Cls.updateNsMap c.e.tag) with ho | ho
      · exact (hx.2 ho).2.1
      · rw [hx.1 ho]
    rw [sameData_get (by decide) hs]
    simp only [Elem.get?] at hv ⊢
    rw [ha]; exact hv

/-- A 1.2 package with a typed element; the prefix is declared on the root. -/
def docTyped : Node :=
  stixDoc "1.2" [el nsStix "STIX_Header" [] [el nsStix "Package_Intent" [xsiType "stixVocabs:PackageIntentVocab-1.0"] []]]

example : DeclaredOnRenamed oasis docTyped ∧ ∃ r, stepUpdate stix12 o0 false 0 docTyped = .ok r ∧
    r.1.doc.elems.map (fun c => NsMap.get? c.env (some "stixVocabs")) =
      List.replicate 3 (some "http://docs.oasis-open.org/cti/ns/stix/vocabularies-1") := by
  refine ⟨?_, ok_of_eval (by decide +kernel)⟩
  have : ∀ c ∈ docTyped.elems, c.e.tag.ns = some "http://stix.mitre.org/stix-1" := by decide +kernel
  exact fun c hc hn => absurd ⟨_, by decide +kernel, this c hc⟩ hn

/-- A 1.2 package with a type in a namespace declared on the CybOX element that has the type. -/
def docTypedCybox : Node :=
  stixDoc "1.2" [el nsCyboxCore "Object" [xsiType "t:X"] [] none [(some "t", nsTTP)]]

/-- C26 fails in the STIX 1.2 step: the type stays in the old namespace. -/
theorem C26_stix_fails : ∃ r, stepUpdate stix12 o0 false 0 docTypedCybox = .ok r ∧
    r.1.doc.elems.map (fun c => (c.e.get? tagXsiType, NsMap.get? c.env (some "t"))) =
      [(none, none), (some "t:X", some "http://stix.mitre.org/TTP-1")] := ok_of_eval (by decide +kernel)

/-- A 2.0.1 document with a Windows driver object; the prefix is declared on the root. -/
def docDriver : Node :=
  el nsCyboxCore "Observables" v201
    [el nsCyboxCore "Properties" [xsiType "WinDriverObj:WindowsDriverObjectType"]
      [el "http://cybox.mitre.org/objects#WinDriverObject-2" "Driver_Name" [] [] (some "d")]] none
    [(some "cybox", nsCyboxCore), (some "xsi", nsXsi), (some "WinDriverObj", "http://cybox.mitre.org/objects#WinDriverObject-2")]

/-- C26 fails in the CybOX 2.0.1 step: the elements of the driver object are in the new namespace, its type is in the old one. -/
theorem C26_cybox_fails : ∃ r, stepUpdate cybox201 o0 false 0 docDriver = .ok r ∧
    r.1.doc.elems.map (fun c => (c.e.tag.ns, c.e.get? tagXsiType, NsMap.get? c.env (some "WinDriverObj"))) =
      [(some nsCyboxCore, none, some "http://cybox.mitre.org/objects#WinDriverObject-2"),
       (some nsCyboxCore, some "WinDriverObj:WindowsDriverObjectType", some "http://cybox.mitre.org/objects#WinDriverObject-2"),
       (some "http://cybox.mitre.org/objects#WinDriverObject-3", none, some "http://cybox.mitre.org/objects#WinDriverObject-3")] :=
  ok_of_eval (by decide +kernel)

/-! ## C35 -/

/-- The extension namespaces a STIX step removes. -/
inductive RemovesNs (w : World) : Updater → List String → Prop
  | stix10 : RemovesNs w stix10
      ["http://stix.mitre.org/extensions/AP#CAPEC2.5-1", "http://stix.mitre.org/extensions/Malware#MAEC4.0-1"]
  | stix101 : RemovesNs w (stix101 w)
      ["http://stix.mitre.org/extensions/AP#CAPEC2.6-1", "http://stix.mitre.org/extensions/Malware#MAEC4.0-1"]

theorem rewrite_dropped {D : List String} {L : List (String × String)} {p q : String × String}
    (h : LocTables.rewrite ⟨D, [], L⟩ p = some q) : q.1 ∉ D := by
  unfold LocTables.rewrite at h
  split at h
  · cases h
  · next hd =>
    simp only [assoc, Option.some.injEq] at h
    subst h
    exact hd

/-- C35, schema location: after the step, forced or not, it lists none of the extension namespaces.
Partial: their declarations stay (`C35_declarations_fail`). -/
theorem C35_partial (w : World) (u : Updater) (D : List String) (hu : RemovesNs w u D) (o : Options) (force : Bool) (k : Nat)
    (t : Node) (r : Result) (k' : Nat) (h : stepUpdate u o force k t = .ok (r, k')) (v : String)
    (hv : rootAttr r.doc ⟨some "http://www.w3.org/2001/XMLSchema-instance", "schemaLocation"⟩ = some v) :
    ∃ ps, Words v.toList (flatPairs ps) ∧ ∀ p ∈ ps, p.1 ∉ D := by
  obtain ⟨T, L, hT⟩ : ∃ T L, StepTables w u [T, ⟨D, [], L⟩] := by
    cases hu
    · exact ⟨_, _, .stix10⟩
    · exact ⟨_, _, .stix101⟩
  obtain ⟨h0, h1⟩ := C17_schemaLocation_exact w u _ hT o force k t r k' h
  cases hx : rootAttr t ⟨some "http://www.w3.org/2001/XMLSchema-instance", "schemaLocation"⟩ with
  | none => rw [h0 hx] at hv; cases hv
  | some x =>
    obtain ⟨v', hv', hw⟩ := h1 x (getSchemalocPairs x) hx ((listsPairs_iff _ _).2 rfl)
    rw [hv] at hv'
    cases hv'
    refine ⟨_, hw, ?_⟩
    intro p hp
    obtain ⟨q, _, hq⟩ := List.mem_filterMap.1 (show p ∈ List.filterMap (LocTables.rewrite ⟨D, [], L⟩) _ from hp)
    exact rewrite_dropped hq

/-- A 1.0 package with a MAEC instance, whose root lists and declares the MAEC namespace. -/
def docMaec : Node :=
  stixDoc "1.0" [el nsTTP "Malware" [] [el nsTTP "Malware_Instance" [xsiType "maec:MAEC4.0InstanceType"] [] (some "m")]]
    [(tagSchemaLoc, "http://stix.mitre.org/extensions/Malware#MAEC4.0-1 maec.xsd urn:x x.xsd")]

example : RemovesNs w0 stix10
    ["http://stix.mitre.org/extensions/AP#CAPEC2.5-1", "http://stix.mitre.org/extensions/Malware#MAEC4.0-1"] := .stix10

example : ∃ r, stepUpdate stix10 o0 true 0 docMaec = .ok r ∧ r.1.removed.length = 2 ∧
    rootAttr r.1.doc ⟨some "http://www.w3.org/2001/XMLSchema-instance", "schemaLocation"⟩ = some "urn:x x.xsd" := ok_of_eval (by decide +kernel)

/-- C35 fails for declarations: after the forced step the MAEC namespace is still declared on the root. -/
theorem C35_declarations_fail : ∃ r, stepUpdate stix10 o0 true 0 docMaec = .ok r ∧
    (some "maec", "http://stix.mitre.org/extensions/Malware#MAEC4.0-1") ∈ r.1.doc.elems.flatMap (·.e.decls) :=
  ok_of_eval (by decide +kernel)

end Ramrod

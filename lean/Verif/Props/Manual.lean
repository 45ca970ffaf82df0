import Verif.Props.Origin
/-!
# The manual is complete: C58
-/

namespace Ramrod

open Samples

/-! ## Statement -/

/-- What a page of the manual lists as changed by an update, apart from schema locations and versions. -/
structure Page where
  /-- Elements that are renamed or rebuilt. -/
  names : List QName := []
  /-- Elements that are rebuilt in a parent. -/
  nested : List (QName × QName) := []
  /-- Namespaces that got another name. -/
  spaces : List String := []
  /-- Types of the default vocabularies that are revised, with their namespaces. -/
  types : List (String × String) := []
  /-- Elements that are removed if empty. -/
  optionals : List QName := []
  /-- The empty children of generic test mechanisms are removed. -/
  generic : Bool := false
  /-- The delimiters of lists in object properties are changed. -/
  lists : Bool := false

/-- The page of an update that includes another update. -/
def Page.including (p q : Page) : Page :=
  ⟨p.names ++ q.names, p.nested ++ q.nested, p.spaces ++ q.spaces, p.types ++ q.types, p.optionals ++ q.optionals,
    p.generic || q.generic, p.lists || q.lists⟩

/-- `docs/updates/cybox/cybox_2.0_to_2.0.1.rst`. -/
def page20 : Page where
  lists := true
  types := [("http://cybox.mitre.org/default_vocabularies-2", "EventTypeVocab-1.0")]

/-- `docs/updates/cybox/cybox_2.0.1_to_2.1.rst`. -/
def page201 : Page where
  names := [objName "HTTPSession" "DNT", objName "HTTPSession" "Vary", objName "HTTPSession" "Refresh",
    objName "Packet" "Protol_Addr_Size", objName "Packet" "Excapsulating_Security_Payload", objName "Packet" "Authenication_Data"]
  nested := [(objName "WinMailslot" "Handle", objName "WinHandle" "Handle")]
  spaces := ["http://cybox.mitre.org/objects#WinDriverObject-2"]
  types := [("http://cybox.mitre.org/default_vocabularies-2", "ToolTypeVocab-1.0"),
    ("http://cybox.mitre.org/default_vocabularies-2", "ObjectRelationshipVocab-1.0"),
    ("http://cybox.mitre.org/default_vocabularies-2", "ActionNameVocab-1.0")]
  optionals := [objName "DiskPartition" "Partition_ID", objName "DNSCache" "DNS_Entry", objName "DNSQuery" "QName", objName "File" "Depth",
    objName "HTTPSession" "Message_Body", objName "HTTPSession" "Domain_Name", objName "Packet" "Address_Mask",
    objName "Packet" "Address_Mask_Reply", objName "Packet" "Address_Mask_Request", objName "Packet" "Destination_Unreachable",
    objName "Packet" "Echo_Reply", objName "Packet" "Echo_Request", objName "Packet" "Error_Msg",
    objName "Packet" "Frag_Reassembly_Time_Exceeded", objName "Packet" "Host_Redirect", objName "Packet" "IP_Addr_Prefix",
    objName "Packet" "IPv6_Addr", objName "Packet" "Info_Msg", objName "Packet" "Network_Redirect",
    objName "Packet" "Outbound_Packet_Forward_Success", objName "Packet" "Outbound_Packet_no_Route",
    objName "Packet" "Receive_Timestamp", objName "Packet" "Redirect_Message", objName "Packet" "Source_Quench",
    objName "Packet" "TTL_Exceeded_In_Transit", objName "Packet" "Time_Exceeded", objName "Packet" "Timestamp",
    objName "Packet" "Timestamp_Reply", objName "Packet" "Timestamp_Request", objName "Packet" "ToS_Host_Redirect",
    objName "Packet" "ToS_Network_Redirect", objName "Packet" "Traceroute", objName "Packet" "Transmit_Timestamp",
    objName "System" "IP_Address", objName "URI" "Value", objName "WinComputerAccount" "Delegation",
    objName "WinComputerAccount" "Bitmask", objName "WinComputerAccount" "Service", objName "WinFile" "Size_In_Bytes",
    objName "WinNetworkShare" "Netname", objName "WinPrefetch" "VolumeItem", objName "WinPrefetch" "DeviceItem"]

/-- `docs/updates/stix/stix_1.0_to_1.0.1.rst`. -/
def page10 : Page where
  types := [("http://stix.mitre.org/default_vocabularies-1", "MotivationVocab-1.0"),
    ("http://stix.mitre.org/default_vocabularies-1", "PlanningAndOperationalSupportVocab-1.0")]

/-- `docs/updates/stix/stix_1.0.1_to_1.1.rst`. -/
def page101 : Page where
  names := [⟨some "http://stix.mitre.org/common-1", "Contributors"⟩]
  nested := [(⟨some "http://stix.mitre.org/TTP-1", "Exploit_Targets"⟩, ⟨some "http://stix.mitre.org/common-1", "Exploit_Target"⟩)]
  types := [("http://stix.mitre.org/default_vocabularies-1", "MotivationVocab-1.0.1"),
    ("http://stix.mitre.org/default_vocabularies-1", "IndicatorTypeVocab-1.0")]
  optionals := [⟨some "http://data-marking.mitre.org/Marking-1", "Controlled_Structure"⟩,
    ⟨some "http://data-marking.mitre.org/Marking-1", "Marking_Structure"⟩]

/-- The elements of `ConfidenceType` and `StatementType` in the STIX 1.1 schemas. -/
def statements : List QName :=
  [⟨some "http://stix.mitre.org/Campaign-1", "Confidence"⟩, ⟨some "http://stix.mitre.org/CourseOfAction-1", "Applicability_Confidence"⟩,
    ⟨some "http://stix.mitre.org/Incident-1", "Confidence"⟩, ⟨some "http://stix.mitre.org/Indicator-2", "Confidence"⟩,
    ⟨some "http://stix.mitre.org/common-1", "Confidence_Assertion"⟩, ⟨some "http://stix.mitre.org/common-1", "Confidence"⟩,
    ⟨some "http://stix.mitre.org/ThreatActor-1", "Confidence"⟩, ⟨some "http://stix.mitre.org/Campaign-1", "Intended_Effect"⟩,
    ⟨some "http://stix.mitre.org/CourseOfAction-1", "Cost"⟩, ⟨some "http://stix.mitre.org/CourseOfAction-1", "Efficacy"⟩,
    ⟨some "http://stix.mitre.org/Incident-1", "Intended_Effect"⟩, ⟨some "http://stix.mitre.org/Indicator-2", "Likely_Impact"⟩,
    ⟨some "http://stix.mitre.org/Indicator-2", "Efficacy"⟩, ⟨some "http://stix.mitre.org/ThreatActor-1", "Type"⟩,
    ⟨some "http://stix.mitre.org/ThreatActor-1", "Motivation"⟩, ⟨some "http://stix.mitre.org/ThreatActor-1", "Sophistication"⟩,
    ⟨some "http://stix.mitre.org/ThreatActor-1", "Intended_Effect"⟩,
    ⟨some "http://stix.mitre.org/ThreatActor-1", "Planning_And_Operational_Support"⟩, ⟨some "http://stix.mitre.org/TTP-1", "Intended_Effect"⟩]

/-- `docs/updates/stix/stix_1.1_to_1.1.1.rst` (which calls the vocabulary `AvailabilityLossVocab-1.0`). -/
def page11 : Page where
  nested := statements.map (fun p => (p, ⟨some "http://stix.mitre.org/common-1", "Source"⟩)) ++
    [(⟨some "http://stix.mitre.org/Indicator-2", "Sighting"⟩, ⟨some "http://stix.mitre.org/Indicator-2", "Source"⟩),
      (⟨some "http://stix.mitre.org/Indicator-2", "Related_Campaigns"⟩, ⟨some "http://stix.mitre.org/Indicator-2", "Related_Campaign"⟩)]
  types := [("http://stix.mitre.org/default_vocabularies-1", "AvailabilityLossTypeVocab-1.0")]
  generic := true

/-- `docs/updates/stix/stix_1.1.1_to_1.2.rst`. -/
def page111 : Page where
  types := [("http://stix.mitre.org/default_vocabularies-1", "DiscoveryMethodVocab-1.0")]

/-- The pages on the updates from the STIX releases. -/
def stixPage : String → Option Page
  | "1.0" => some (page10.including page20)
  | "1.0.1" => some (page101.including page201)
  | "1.1" => some page11
  | "1.1.1" => some page111
  | _ => none

/-- The pages on the updates from the CybOX releases. -/
def cyboxPage : String → Option Page
  | "2.0" => some page20
  | "2.0.1" => some page201
  | _ => none

/-- What the updates change without a word in the manual. -/
def unlisted : Page where
  names := [objName "HTTPSession" "X_Requested_For"]
  types := [("http://stix.mitre.org/default_vocabularies-1", "MotivationVocab-1.0")]
  optionals := [objName "LinuxPackage" "Name", objName "Product" "Product", objName "Product" "Vendor"]

/-- The page is about this element. -/
def Page.Mentions (p : Page) (c : Ctx) : Prop :=
  c.e.tag ∈ p.names ∨ (∃ q ∈ p.nested, c.e.tag = q.2 ∧ c.anc.head? = some q.1) ∨ (∃ n ∈ p.spaces, c.e.tag.ns = some n) ∨
    (∃ ty ∈ p.types, ∃ x, c.TypedAs x ty.2 ty.1) ∨ (c.e.tag ∈ p.optionals ∧ c.node.All Bare) ∨
    (p.generic = true ∧ (∃ x, c.TypedAs x "GenericTestMechanismType" "http://stix.mitre.org/extensions/TestMechanism#Generic-1") ∧
      ∃ e ks, Node.elem e ks ∈ c.kids ∧ (Node.elem e ks).All Bare) ∨
    (p.lists = true ∧ (∃ i, PropsAt c.anc i) ∧ ∃ s, c.e.text = some s ∧ (',' ∈ s.toList ∨ "&comma;".toList <:+: s.toList))

/-- The page is about nothing in the document. -/
def Page.Silent (p : Page) (t : Node) : Prop := ∀ c ∈ t.elems, ¬ p.Mentions c

/-- The attributes that an update of a document it has nothing to do in may change. -/
def stampNames : List QName :=
  [⟨some "http://www.w3.org/2001/XMLSchema-instance", "schemaLocation"⟩, ⟨none, "version"⟩, ⟨none, "cybox_major_version"⟩,
    ⟨none, "cybox_minor_version"⟩, ⟨none, "cybox_update_version"⟩]

/-- `t'` is `t` with other schema locations and version numbers. -/
def OnlyStamped (t t' : Node) : Prop := Node.Rel (fun e e' => SameData stampNames e e' ∧ e'.text = e.text) t t'

/-! ## Helpers -/

/-- The invariant: stamped, and without attributes only if it was so before. -/
def Stamped (e e' : Elem) : Prop := (SameData stampNames e e' ∧ e'.text = e.text) ∧ (e'.attrs = [] → e.attrs = [])

theorem stamped_refl (e : Elem) : Stamped e e := ⟨⟨SameData.refl _ e, rfl⟩, id⟩
theorem stamped_trans {a b c : Elem} (h : Stamped a b) (g : Stamped b c) : Stamped a c :=
  ⟨⟨SameData.trans h.1.1 g.1.1, g.1.2.trans h.1.2⟩, fun e => h.2 (g.2 e)⟩

mutual
theorem rel_walk_env {P : Elem → Elem → Prop} (hP : ∀ e e', P e e' → e'.tag = e.tag ∧ e'.decls = e.decls) {pos : Pos} {env : NsMap}
    {anc : List QName} : ∀ {a b : Node}, Node.Rel P a b → ∀ c' ∈ b.walk pos env anc, ∃ c ∈ a.walk pos env anc,
      c'.env = c.env ∧ c'.anc = c.anc ∧ P c.e c'.e ∧ Node.Rels P c.kids c'.kids
  | .elem e ks, .elem e' ks', h, c', hc => by
    simp only [Node.Rel] at h
    obtain ⟨h1, h2⟩ := hP _ _ h.1
    simp only [Node.walk, List.mem_cons, h1, h2] at hc
    rcases hc with rfl | hc
    · exact ⟨⟨pos, e.decls ++ env, anc, e, ks⟩, by simp [Node.walk], rfl, rfl, h.1, h.2⟩
    · obtain ⟨c, g1, g2⟩ := rels_walks_env hP h.2 c' hc
      exact ⟨c, by simp [Node.walk, g1], g2⟩
  | .other _ _, .other _ _, _, c', hc => by simp [Node.walk] at hc
  | .elem _ _, .other _ _, h, _, _ => by simp only [Node.Rel] at h
  | .other _ _, .elem _ _, h, _, _ => by simp only [Node.Rel] at h
theorem rels_walks_env {P : Elem → Elem → Prop} (hP : ∀ e e', P e e' → e'.tag = e.tag ∧ e'.decls = e.decls) {pos : Pos} {i : Nat}
    {env : NsMap} {anc : List QName} : ∀ {a b : List Node}, Node.Rels P a b → ∀ c' ∈ Node.walks pos i env anc b,
      ∃ c ∈ Node.walks pos i env anc a, c'.env = c.env ∧ c'.anc = c.anc ∧ P c.e c'.e ∧ Node.Rels P c.kids c'.kids
  | [], [], _, c', hc => by simp [Node.walks] at hc
  | [], _ :: _, h, _, _ => by simp only [Node.Rels] at h
  | _ :: _, [], h, _, _ => by simp only [Node.Rels] at h
  | a :: as, b :: bs, h, c', hc => by
    simp only [Node.Rels] at h
    simp only [Node.walks, List.mem_append] at hc
    rcases hc with hc | hc
    · obtain ⟨c, g1, g2⟩ := rel_walk_env hP h.1 c' hc
      exact ⟨c, by simp [Node.walks, g1], g2⟩
    · obtain ⟨c, g1, g2⟩ := rels_walks_env hP h.2 c' hc
      exact ⟨c, by simp [Node.walks, g1], g2⟩
end

mutual
theorem rel_all_back {P : Elem → Elem → Prop} {A : Elem → Prop} (hA : ∀ e e', P e e' → A e' → A e) : ∀ {a b : Node},
    Node.Rel P a b → b.All A → a.All A
  | .elem _ _, .elem _ _, h, hb => by simp only [Node.Rel] at h; exact ⟨hA _ _ h.1 hb.1, rels_alls_back hA h.2 hb.2⟩
  | .other _ _, .other _ _, _, _ => by simp only [Node.All]
  | .elem _ _, .other _ _, h, _ => by simp only [Node.Rel] at h
  | .other _ _, .elem _ _, h, _ => by simp only [Node.Rel] at h
theorem rels_alls_back {P : Elem → Elem → Prop} {A : Elem → Prop} (hA : ∀ e e', P e e' → A e' → A e) : ∀ {a b : List Node},
    Node.Rels P a b → Node.Alls A b → Node.Alls A a
  | [], [], _, _ => by simp only [Node.Alls]
  | [], _ :: _, h, _ => by simp only [Node.Rels] at h
  | _ :: _, [], h, _ => by simp only [Node.Rels] at h
  | _ :: _, _ :: _, h, hb => by simp only [Node.Rels] at h; exact ⟨rel_all_back hA h.1 hb.1, rels_alls_back hA h.2 hb.2⟩
end

theorem rels_mem_back {P : Elem → Elem → Prop} : ∀ {a b : List Node}, Node.Rels P a b → ∀ {e' : Elem} {ks' : List Node},
    Node.elem e' ks' ∈ b → ∃ e ks, Node.elem e ks ∈ a ∧ Node.Rel P (.elem e ks) (.elem e' ks')
  | [], [], _, _, _, hm => by cases hm
  | [], _ :: _, h, _, _, _ => by simp only [Node.Rels] at h
  | _ :: _, [], h, _, _, _ => by simp only [Node.Rels] at h
  | a :: as, b :: bs, h, e', ks', hm => by
    simp only [Node.Rels] at h
    rcases List.mem_cons.1 hm with rfl | hm
    · cases a with
      | other _ _ => simp [Node.Rel] at h
      | elem e ks => exact ⟨e, ks, by simp, h.1⟩
    · obtain ⟨e, ks, h1, h2⟩ := rels_mem_back h.2 hm
      exact ⟨e, ks, by simp [h1], h2⟩

theorem stamped_bare {e e' : Elem} (h : Stamped e e') (hb : Bare e') : Bare e := ⟨h.2 hb.1, by rw [← h.1.2]; exact hb.2⟩

theorem silent_rel {p : Page} {a b : Node} (h : Node.Rel Stamped a b) (ha : p.Silent a) : p.Silent b := by
  intro c' hc' hm
  obtain ⟨c, hc, he, hn, hs, hk⟩ := rel_walk_env (P := Stamped) (fun e e' h => ⟨h.1.1.1, h.1.1.2.1⟩) h c' hc'
  have typed : ∀ {x ty ns : String}, c'.TypedAs x ty ns → c.TypedAs x ty ns := by
    rintro x ty ns ⟨v, h1, h2, h3⟩
    refine ⟨v, ?_, h2, by rw [← he]; exact h3⟩
    have : c'.e.get? ⟨some "http://www.w3.org/2001/XMLSchema-instance", "type"⟩ =
        c.e.get? ⟨some "http://www.w3.org/2001/XMLSchema-instance", "type"⟩ := get_of_filter (by decide) hs.1.1.2.2.2
    rw [← this]; exact h1
  apply ha c hc
  rcases hm with h1 | ⟨q, hq, h1, h2⟩ | ⟨n, hn', h1⟩ | ⟨ty, hty, x, h1⟩ | ⟨h1, h2⟩ | ⟨h1, ⟨x, h2⟩, e', ks', h3, h4⟩ | ⟨h1, ⟨i, h2⟩, s, h3, h4⟩
  · exact Or.inl (by rw [← hs.1.1.1]; exact h1)
  · exact Or.inr (Or.inl ⟨q, hq, by rw [← hs.1.1.1]; exact h1, by rw [← hn]; exact h2⟩)
  · exact Or.inr (Or.inr (Or.inl ⟨n, hn', by rw [← hs.1.1.1]; exact h1⟩))
  · exact Or.inr (Or.inr (Or.inr (Or.inl ⟨ty, hty, x, typed h1⟩)))
  · refine Or.inr (Or.inr (Or.inr (Or.inr (Or.inl ⟨by rw [← hs.1.1.1]; exact h1, ?_⟩))))
    exact rel_all_back (P := Stamped) (A := Bare) (fun _ _ => stamped_bare) (a := c.node) (b := c'.node) (by simp only [Ctx.node, Node.Rel]; exact ⟨hs, hk⟩) h2
  · obtain ⟨e, ks, g1, g2⟩ := rels_mem_back hk h3
    exact Or.inr (Or.inr (Or.inr (Or.inr (Or.inr (Or.inl ⟨h1, ⟨x, typed h2⟩, e, ks, g1,
      rel_all_back (P := Stamped) (A := Bare) (fun _ _ => stamped_bare) g2 h4⟩)))))
  · exact Or.inr (Or.inr (Or.inr (Or.inr (Or.inr (Or.inr ⟨h1, ⟨i, by rw [← hn]; exact h2⟩, s, by rw [← hs.1.2]; exact h3, h4⟩)))))

/-! ### The passes that stamp -/

theorem set_attrs_ne (e : Elem) (k : QName) (v : String) : (e.set k v).attrs ≠ [] := by
  unfold Elem.set
  simp only
  cases e.attrs with
  | nil => simp [Attrs.set]
  | cons a as => obtain ⟨x, y⟩ := a; simp only [Attrs.set]; split <;> simp

theorem stamped_set {e : Elem} {k : QName} {v : String} (hk : k ∈ stampNames) : Stamped e (e.set k v) :=
  ⟨⟨SameData.set hk _ e, rfl⟩, fun h => absurd h (set_attrs_ne e k v)⟩

theorem stamped_edit {F : Ctx → Elem} (h : ∀ c, Stamped c.e (F c)) (t : Node) : Node.Rel Stamped t (t.edit F) :=
  rel_mapCtx h [] [] [] t

theorem stamped_schemaloc (u : Cls) (t : Node) : Node.Rel Stamped t (u.updateSchemalocs t) := by
  rw [updateSchemalocs_eq]
  refine stamped_edit (fun c => ?_) t
  unfold schemalocEdit
  split
  · unfold Cls.updateSchemalocsElem
    split
    · exact stamped_refl _
    · exact stamped_set (by decide)
  · exact stamped_refl _

theorem stamped_versions {m : List (String × String)} {alts : List XAlt} {g : Elem → Elem} (hg : ∀ e, Stamped e (g e)) (t : Node) :
    Node.Rel Stamped t (t.edit (versionEdit m alts g)) := by
  refine stamped_edit (fun c => ?_) t
  unfold versionEdit
  split
  · exact hg _
  · exact stamped_refl _

theorem stamped_201 (e : Elem) : Stamped e (setVersion201 e) := by
  unfold setVersion201
  exact stamped_trans (stamped_trans (stamped_set (by decide)) (stamped_set (by decide))) (stamped_set (by decide))

theorem stamped_21 (e : Elem) : Stamped e (setVersion21 e) := by
  have h1 : Stamped e ((e.set attrMajor "2").set attrMinor "1") := stamped_trans (stamped_set (by decide)) (stamped_set (by decide))
  refine ⟨⟨⟨h1.1.1.1, h1.1.1.2.1, h1.1.1.2.2.1, ?_⟩, h1.1.2⟩, fun h => ?_⟩
  · rw [← h1.1.1.2.2.2]
    unfold setVersion21 Elem.del Attrs.del
    simp only [List.filter_filter]
    apply List.filter_congr
    intro a _
    by_cases ha : a.1 = attrUpdate
    · rw [ha]; decide
    · simp [ha]
  · have : (setVersion21 e).get? attrMajor = some "2" := by
      unfold setVersion21
      rw [Elem.get?_del, if_neg (by decide), Elem.get?_set, if_neg (by decide), Elem.get?_set, if_pos rfl]
    unfold Elem.get? at this
    rw [h] at this
    cases this

theorem stamped_stix (i v : String) (e : Elem) : Stamped e (setStixVersion i v e) := by
  unfold setStixVersion
  split <;> exact stamped_set (by decide)

theorem rel_stamped_trans {a b c : Node} (h : Node.Rel Stamped a b) (g : Node.Rel Stamped b c) : Node.Rel Stamped a c :=
  Node.Rel.comp (P := Stamped) (Q := Stamped) (R := Stamped) (fun _ _ _ => stamped_trans) h g

/-! ### The passes that find nothing to do -/

theorem translate_nothing {f : Trans} {t : Node} (h : t.xpath f.nsmap f.xpath = []) : f.translate t = .ok t := by
  have e : t.replaceAll [] = t := (translate_custom (alts := []) (m := []) (g := fun _ => .error .keyError) (t := t) (t' := t.replaceAll [])
    (by
      have : t.xpath [] [] = [] := List.filter_eq_nil_iff.2 (by simp)
      simp only [Trans.translate, this, mapE])).none (fun c _ => by simp)
  unfold Trans.translate
  simp only [h]
  split <;> simp [mapE, e, Node.modifyAll]

theorem fields_nothing : ∀ {fs : List Trans} {t : Node}, (∀ f ∈ fs, t.xpath f.nsmap f.xpath = []) → translateFields fs t = .ok t
  | [], _, _ => rfl
  | f :: fs, t, h => by
    simp only [translateFields, foldE, translate_nothing (h f (by simp))]
    exact fields_nothing (fun g hg => h g (by simp [hg]))

/-- Fields none of which the page is silent about. -/
theorem fields_silent {p q : Page} {fs : List Trans} (hf : ∀ f ∈ fs, ∀ a ∈ f.xpath, (a.tag.resolve f.nsmap ∈ p.names ∨ a.tag.resolve f.nsmap ∈ q.names) ∨
    ∃ x ∈ p.nested, a.tag.resolve f.nsmap = x.2 ∧ a.parent.map (XName.resolve f.nsmap) = some x.1) {t : Node} (hp : p.Silent t)
    (hq : q.Silent t) : translateFields fs t = .ok t := by
  refine fields_nothing (fun f hf' => ?_)
  unfold Node.xpath
  rw [List.filter_eq_nil_iff]
  intro c hc hs
  obtain ⟨a, ha, hs⟩ := List.any_eq_true.1 hs
  unfold XAlt.selects at hs
  simp only [Bool.and_eq_true, decide_eq_true_eq] at hs
  obtain ⟨⟨h1, h2⟩, _⟩ := hs
  rcases hf f hf' a ha with (h | h) | ⟨x, hx, g1, g2⟩
  · exact hp c hc (Or.inl (by rw [h1]; exact h))
  · exact hq c hc (Or.inl (by rw [h1]; exact h))
  · cases hpar : a.parent with
    | none => rw [hpar] at g2; cases g2
    | some y =>
      rw [hpar] at g2 h2
      simp only [Option.map_some, Option.some.injEq] at g2
      simp only [Bool.and_eq_true, decide_eq_true_eq] at h2
      exact hp c hc (Or.inr (Or.inl ⟨x, hx, by rw [h1]; exact g1, by rw [h2.1, g2]⟩))

theorem without_nothing {S : Ctx → Bool} {t : Node} (h : ∀ c ∈ t.elems, c.anc ≠ [] → S c = false) : t.without S = t := by
  rw [without_congr (S' := fun _ => false) h, ← removeAll_sel, List.filter_eq_nil_iff.2 (by simp)]
  rw [Node.removeAll]
  exact prune_none (fun p => by simp) t

theorem vocabs_silent {vs : List Vocab} {rows : List VocabRow} (hm : MatchesAll vs rows) (hst : Stable rows) {p q : Page}
    (hr : ∀ row ∈ rows, ∀ ty ∈ row.old, (row.ns, ty) ∈ p.types ∨ (row.ns, ty) ∈ q.types) {b : Bool} {t t' : Node} (hp : p.Silent t)
    (hq : q.Silent t) (h : (if b then updateVocabs vs t else .ok t) = .ok t') : t' = t := by
  cases b with
  | false => cases h; rfl
  | true =>
    obtain ⟨F, _, rfl, hF⟩ := updateVocabs_spec hm hst (h : updateVocabs vs t = .ok t')
    refine edit_self (fun c hc => (hF c hc).2 ?_)
    rintro row hrow x ⟨_, ty, hty, ho⟩
    rcases hr row hrow ty hty with h' | h'
    · exact hp c hc (Or.inr (Or.inr (Or.inr (Or.inl ⟨_, h', x, ho⟩))))
    · exact hq c hc (Or.inr (Or.inr (Or.inr (Or.inl ⟨_, h', x, ho⟩))))

theorem named_silent {names : List QName} {p q : Page} (hn : ∀ n ∈ names, n ∈ p.optionals ∨ n ∈ q.optionals) {t : Node} (hp : p.Silent t)
    (hq : q.Silent t) : t.without (optSel names) = t := by
  refine without_nothing (fun c hc _ => ?_)
  rw [← Bool.not_eq_true, optSel_spec (t := t)]
  rintro ⟨_, h1, h2⟩
  rcases hn _ h1 with h | h
  · exact hp c hc (Or.inr (Or.inr (Or.inr (Or.inr (Or.inl ⟨h, h2⟩)))))
  · exact hq c hc (Or.inr (Or.inr (Or.inr (Or.inr (Or.inl ⟨h, h2⟩)))))

theorem ns_silent {u : Cls} {p : Page} (hu : ∀ x ∈ u.updateNsMap, x.1 ∈ p.spaces) {t : Node} (hp : p.Silent t) : u.updateNamespaces [] t = t := by
  rw [updateNamespaces_eq]
  refine edit_self (fun c hc => ?_)
  unfold nsEdit
  split
  · next hn =>
    unfold Cls.nsUpdated at hn
    split at hn
    · cases hn
    · next n hns =>
      obtain ⟨v, hv⟩ := Option.isSome_iff_exists.1 hn
      exact absurd (Or.inr (Or.inr (Or.inl ⟨n, hu _ (assoc_mem hv), hns⟩))) (hp c hc)
  · rfl

theorem propsDepth_none : ∀ {anc : List QName}, (∀ i, ¬ PropsAt anc i) →
    propsDepth ⟨some "http://cybox.mitre.org/cybox-2", "Object"⟩ ⟨some "http://cybox.mitre.org/cybox-2", "Properties"⟩ anc = 0
  | [], _ => rfl
  | q :: qs, h => by
    simp only [propsDepth]
    rw [propsDepth_none (fun i hi => h (i + 1) (by simpa [PropsAt] using hi)), if_neg]
    rintro ⟨rfl, h2⟩
    exact h 0 ⟨rfl, by simpa [List.head?_eq_getElem?] using h2⟩

theorem listText_plain {s : String} (h1 : ',' ∉ s.toList) (h2 : ¬ "&comma;".toList <:+: s.toList) : updateListText s = s := by
  unfold updateListText pyReplace
  have e1 : replaceAux ",".toList "##comma##".toList 0 s.toList = s.toList :=
    replaceAux_none (fun ⟨a, b, h⟩ => h1 (by rw [← h]; simp))
  rw [e1, String.ofList_toList, replaceAux_none h2, String.ofList_toList]

theorem lists_silent {p : Page} (hl : p.lists = true) {m : List (String × String)}
    (hm : XName.resolve m ⟨"cybox", "Object"⟩ = ⟨some "http://cybox.mitre.org/cybox-2", "Object"⟩ ∧
      XName.resolve m ⟨"cybox", "Properties"⟩ = ⟨some "http://cybox.mitre.org/cybox-2", "Properties"⟩) {t : Node} (hp : p.Silent t) :
    t.edit (listsEdit m) = t := by
  refine edit_self (fun c hc => ?_)
  unfold listsEdit
  rw [hm.1, hm.2]
  rcases Classical.em (∃ i, PropsAt c.anc i) with hi | hi
  · have h1 : updateListElem c.e = c.e := by
      unfold updateListElem
      split
      · rfl
      · next s hs =>
        split
        · rfl
        · have hno : ¬ (',' ∈ s.toList ∨ "&comma;".toList <:+: s.toList) := fun h =>
            hp c hc (Or.inr (Or.inr (Or.inr (Or.inr (Or.inr (Or.inr ⟨hl, hi, s, hs, h⟩))))))
          rw [listText_plain (fun h => hno (Or.inl h)) (fun h => hno (Or.inr h)), ← hs]
    have : ∀ n, iter updateListElem n c.e = c.e := by
      intro n
      induction n with
      | zero => rfl
      | succ n ih => simp only [iter, ih, h1]
    exact this _
  · rw [propsDepth_none (fun i h => hi ⟨i, h⟩)]; rfl

theorem mentions_left {p q : Page} {c : Ctx} (h : p.Mentions c) : (p.including q).Mentions c := by
  rcases h with h1 | ⟨x, hx, h1⟩ | ⟨n, hn, h1⟩ | ⟨ty, hty, h1⟩ | ⟨h1, h2⟩ | ⟨h1, h2⟩ | ⟨h1, h2⟩
  · exact Or.inl (List.mem_append_left _ h1)
  · exact Or.inr (Or.inl ⟨x, List.mem_append_left _ hx, h1⟩)
  · exact Or.inr (Or.inr (Or.inl ⟨n, List.mem_append_left _ hn, h1⟩))
  · exact Or.inr (Or.inr (Or.inr (Or.inl ⟨ty, List.mem_append_left _ hty, h1⟩)))
  · exact Or.inr (Or.inr (Or.inr (Or.inr (Or.inl ⟨List.mem_append_left _ h1, h2⟩))))
  · exact Or.inr (Or.inr (Or.inr (Or.inr (Or.inr (Or.inl ⟨by simp [Page.including, h1], h2⟩)))))
  · exact Or.inr (Or.inr (Or.inr (Or.inr (Or.inr (Or.inr ⟨by simp [Page.including, h1], h2⟩)))))

theorem mentions_right {p q : Page} {c : Ctx} (h : q.Mentions c) : (p.including q).Mentions c := by
  rcases h with h1 | ⟨x, hx, h1⟩ | ⟨n, hn, h1⟩ | ⟨ty, hty, h1⟩ | ⟨h1, h2⟩ | ⟨h1, h2⟩ | ⟨h1, h2⟩
  · exact Or.inl (List.mem_append_right _ h1)
  · exact Or.inr (Or.inl ⟨x, List.mem_append_right _ hx, h1⟩)
  · exact Or.inr (Or.inr (Or.inl ⟨n, List.mem_append_right _ hn, h1⟩))
  · exact Or.inr (Or.inr (Or.inr (Or.inl ⟨ty, List.mem_append_right _ hty, h1⟩)))
  · exact Or.inr (Or.inr (Or.inr (Or.inr (Or.inl ⟨List.mem_append_right _ h1, h2⟩))))
  · exact Or.inr (Or.inr (Or.inr (Or.inr (Or.inr (Or.inl ⟨by simp [Page.including, h1], h2⟩)))))
  · exact Or.inr (Or.inr (Or.inr (Or.inr (Or.inr (Or.inr ⟨by simp [Page.including, h1], h2⟩)))))

theorem generic_silent {p : Page} (hg : p.generic = true) {w : World} {t t' : Node} (hp : p.Silent t)
    (h : removeOptionals (stix11Cls w).optionals t = .ok t') : t' = t := by
  simp only [stix11Cls, removeOptionals, foldE] at h
  split at h
  · cases h
  · next x hx =>
    cases hf : optionalGenericTM.find t with
    | error y => rw [hf] at hx; cases hx
    | ok l =>
      rw [hf] at hx
      cases hx
      cases h
      obtain ⟨S, hS, e⟩ := gone_positions (genericTM_find hf)
      rw [e]
      refine without_nothing (fun c hc _ => ?_)
      rw [← Bool.not_eq_true, hS c hc]
      rintro ⟨_, ⟨b, hb, _, ⟨i, _, _, _, hi⟩, x, hx⟩, h3⟩
      exact hp b hb (Or.inr (Or.inr (Or.inr (Or.inr (Or.inr (Or.inl ⟨hg, ⟨x, hx⟩, c.e, c.kids, List.mem_of_getElem? hi, h3⟩))))))

/-! ### Steps -/

theorem silent_update20 {n : List (String × String)} {sel : List XAlt}
    (hn : XName.resolve n ⟨"cybox", "Object"⟩ = ⟨some "http://cybox.mitre.org/cybox-2", "Object"⟩ ∧
      XName.resolve n ⟨"cybox", "Properties"⟩ = ⟨some "http://cybox.mitre.org/cybox-2", "Properties"⟩)
    {o : Options} {t t' : Node} (h : cybox20Update (cybox20Cls n sel) o t = .ok t') (ht : page20.Silent t) : Node.Rel Stamped t t' := by
  simp only [cybox20Update] at h
  rw [cybox20Versions_eq, updateLists_eq] at h
  have r1 := rel_stamped_trans (stamped_schemaloc (cybox20Cls n sel) t)
    (stamped_versions (m := (cybox20Cls n sel).nsmap) (alts := (cybox20Cls n sel).xpathVersioned) stamped_201 _)
  have s1 := silent_rel r1 ht
  rw [lists_silent (m := (cybox20Cls n sel).nsmap) rfl hn s1] at h
  have := vocabs_silent (stepRows_matches (w := w0) .cybox20) (stepRows_stable (w := w0) .cybox20) (p := page20) (q := page20) (by decide) s1 s1 h
  rw [this]
  exact r1

theorem fields201_listed : ∀ f ∈ cybox201Translatable, ∀ a ∈ f.xpath, (a.tag.resolve f.nsmap ∈ page201.names ∨
    a.tag.resolve f.nsmap ∈ unlisted.names) ∨
    ∃ x ∈ page201.nested, a.tag.resolve f.nsmap = x.2 ∧ a.parent.map (XName.resolve f.nsmap) = some x.1 := by decide +kernel

theorem silent_update201 {n : List (String × String)} {sel : List XAlt} {o : Options} {t t' : Node}
    (h : cybox201Update (cybox201Cls n sel) o t = .ok t') (ht : page201.Silent t) (hu : unlisted.Silent t) : Node.Rel Stamped t t' := by
  simp only [cybox201Update] at h
  rw [cybox201Versions_eq, ns_silent (p := page201) (by simp only [cybox201Cls]; decide) ht] at h
  have r1 := rel_stamped_trans (stamped_schemaloc (cybox201Cls n sel) t)
    (stamped_versions (m := (cybox201Cls n sel).nsmap) (alts := (cybox201Cls n sel).xpathVersioned) stamped_21 _)
  have s1 := silent_rel r1 ht
  have s2 := silent_rel r1 hu
  rw [show (cybox201Cls n sel).translatable = cybox201Translatable from rfl, fields_silent fields201_listed s1 s2] at h
  simp only at h
  split at h
  · cases h
  · next d hd =>
    have := vocabs_silent (stepRows_matches (w := w0) .cybox201) (stepRows_stable (w := w0) .cybox201) (p := page201) (q := unlisted)
      (by decide) s1 s2 hd
    subst this
    rw [show (cybox201Cls n sel).optionals = cybox201Optionals from rfl, optionals_pass, named_silent (p := page201) (q := unlisted) (by decide +kernel) s1 s2] at h
    cases hb : o.removeOptionals <;> rw [hb] at h <;> cases h <;> exact r1

theorem silent_cybox {v : String} {u : Updater} {p : Page} (hu : assoc cyboxUpdaters v = some u) (hp : cyboxPage v = some p) {o : Options}
    {t t' : Node} (h : u.update o t = .ok t') (ht : p.Silent t) (hq : unlisted.Silent t) : Node.Rel Stamped t t' := by
  have := assoc_mem hu
  simp only [cyboxUpdaters, List.mem_cons, Prod.mk.injEq, List.not_mem_nil, or_false] at this
  rcases this with ⟨rfl, rfl⟩ | ⟨rfl, rfl⟩
  · cases hp
    exact silent_update20 (by decide +kernel) h ht
  · cases hp
    exact silent_update201 h ht hq

theorem silent_including {p q : Page} {t : Node} (h : (p.including q).Silent t) : p.Silent t ∧ q.Silent t :=
  ⟨fun c hc hm => h c hc (mentions_left hm), fun c hc hm => h c hc (mentions_right hm)⟩

theorem fields101_listed (w : World) : ∀ f ∈ (stix101Cls w).translatable, ∀ a ∈ f.xpath, (a.tag.resolve f.nsmap ∈ page101.names ∨
    a.tag.resolve f.nsmap ∈ unlisted.names) ∨
    ∃ x ∈ page101.nested, a.tag.resolve f.nsmap = x.2 ∧ a.parent.map (XName.resolve f.nsmap) = some x.1 := by
  show ∀ f ∈ [transContributors, transExploitTargets], ∀ a ∈ f.xpath, (a.tag.resolve f.nsmap ∈ page101.names ∨
    a.tag.resolve f.nsmap ∈ unlisted.names) ∨
    ∃ x ∈ page101.nested, a.tag.resolve f.nsmap = x.2 ∧ a.parent.map (XName.resolve f.nsmap) = some x.1
  decide +kernel

theorem fields11_listed (w : World) : ∀ f ∈ (stix11Cls w).translatable, ∀ a ∈ f.xpath, (a.tag.resolve f.nsmap ∈ page11.names ∨
    a.tag.resolve f.nsmap ∈ unlisted.names) ∨
    ∃ x ∈ page11.nested, a.tag.resolve f.nsmap = x.2 ∧ a.parent.map (XName.resolve f.nsmap) = some x.1 := by
  have h0 : ∀ f ∈ (stix11Cls w0).translatable, ∀ a ∈ f.xpath, (a.tag.resolve f.nsmap ∈ page11.names ∨
    a.tag.resolve f.nsmap ∈ unlisted.names) ∨
    ∃ x ∈ page11.nested, a.tag.resolve f.nsmap = x.2 ∧ a.parent.map (XName.resolve f.nsmap) = some x.1 := by decide +kernel
  intro f hf
  simp only [stix11Cls, List.mem_cons, List.not_mem_nil, or_false] at hf
  rcases hf with rfl | rfl | rfl
  · exact h0 (transCommonSource w0) (by simp [stix11Cls])
  · exact h0 (transSightingsSource w0) (by simp [stix11Cls])
  · exact h0 transRelatedCampaign (by simp [stix11Cls])

theorem silent_stix {w : World} {v : String} {u : Updater} {p : Page} (hu : assoc (stixUpdaters w) v = some u) (hp : stixPage v = some p)
    {o : Options} {t t' : Node} (h : u.update o t = .ok t') (ht : p.Silent t) (hq : unlisted.Silent t) : Node.Rel Stamped t t' := by
  have := assoc_mem hu
  simp only [stixUpdaters, List.mem_cons, Prod.mk.injEq, List.not_mem_nil, or_false] at this
  rcases this with ⟨rfl, rfl⟩ | ⟨rfl, rfl⟩ | ⟨rfl, rfl⟩ | ⟨rfl, rfl⟩ | ⟨rfl, rfl⟩
  · cases hp
    simp only [stix10, stix10Update] at h
    split at h
    · cases h
    · next t1 h1 =>
      rw [updateNamespaces_none (u := stix10Cls) rfl, stixVersions_eq] at h
      have r1 := rel_stamped_trans (silent_update20 (by decide +kernel) h1 (silent_including ht).2)
        (rel_stamped_trans (stamped_schemaloc stix10Cls t1)
          (stamped_versions (m := stix10Cls.nsmap) (alts := stix10Cls.xpathVersioned) (stamped_stix "2.0.1" "1.0.1") _))
      have s1 := silent_rel r1 (silent_including ht).1
      rw [vocabs_silent (stepRows_matches (w := w) .stix10) (stepRows_stable (w := w) .stix10) (p := page10) (q := page10) (by decide) s1 s1 h]
      exact r1
  · cases hp
    simp only [stix101, stix101Update] at h
    split at h
    · cases h
    · next t1 h1 =>
      rw [updateNamespaces_none (u := stix101Cls w) rfl, stixVersions_eq] at h
      have r1 := rel_stamped_trans (silent_update201 h1 (silent_including ht).2 hq)
        (rel_stamped_trans (stamped_schemaloc (stix101Cls w) t1)
          (stamped_versions (m := (stix101Cls w).nsmap) (alts := (stix101Cls w).xpathVersioned) (stamped_stix "2.1" "1.1") _))
      have s1 := silent_rel r1 (silent_including ht).1
      have s2 := silent_rel r1 hq
      rw [fields_silent (fields101_listed w) s1 s2] at h
      simp only at h
      split at h
      · cases h
      · next d hd =>
        have := vocabs_silent (stepRows_matches (w := w) .stix101) (stepRows_stable (w := w) .stix101) (p := page101) (q := unlisted)
          (by decide) s1 s2 hd
        subst this
        rw [optionals_pass11, named_silent (p := page101) (q := unlisted) (by decide +kernel) s1 s2] at h
        cases hb : o.removeOptionals <;> rw [hb] at h <;> cases h <;> exact r1
  · cases hp
    simp only [stix11, stix11Update] at h
    rw [stixVersions_eq] at h
    have r1 := rel_stamped_trans (rel_stamped_trans (stamped_schemaloc stix11Cybox t) (stamped_schemaloc (stix11Cls w) _))
      (stamped_versions (m := (stix11Cls w).nsmap) (alts := (stix11Cls w).xpathVersioned) (stamped_stix "2.1.1" "1.1.1") _)
    have s1 := silent_rel r1 ht
    have s2 := silent_rel r1 hq
    rw [fields_silent (fields11_listed w) s1 s2] at h
    simp only at h
    split at h
    · cases h
    · next d hd =>
      have := vocabs_silent (stepRows_matches (w := w) .stix11) (stepRows_stable (w := w) .stix11) (p := page11) (q := page11)
        (by decide) s1 s1 hd
      subst this
      cases hb : o.removeOptionals <;> rw [hb] at h
      · cases h; exact r1
      · rw [generic_silent rfl s1 h]; exact r1
  · cases hp
    simp only [stix111, stix111Update] at h
    rw [stixVersions_eq] at h
    have r1 := rel_stamped_trans (stamped_schemaloc stix111Cls t)
      (stamped_versions (m := stix111Cls.nsmap) (alts := stix111Cls.xpathVersioned) (stamped_stix "2.2" "1.2") _)
    have s1 := silent_rel r1 ht
    rw [vocabs_silent (stepRows_matches (w := w) .stix111) (stepRows_stable (w := w) .stix111) (p := page111) (q := page111) (by decide) s1 s1 h]
    exact r1
  · cases hp

theorem stamped_only {t t' : Node} (h : Node.Rel Stamped t t') : OnlyStamped t t' := rel_mono (fun _ _ he => he.1) h

/-! ## C58 -/

/-- C58 for one STIX step.  The page of the manual on the step lists nothing that is in the document; then the step, with any
options, changes nothing but schema locations and version numbers.  Partial: the document must also be without the few things that
the steps change without a word in the manual, see `C58_unlisted_fails` and `C58_types_fails`. -/
theorem C58_stix_step_partial (w : World) (v : String) (u : Updater) (hu : assoc (stixUpdaters w) v = some u) (p : Page)
    (hp : stixPage v = some p) (o : Options) (k k' : Nat) (t : Node) (ht : p.Silent t) (hq : unlisted.Silent t) (r : Result)
    (h : stepUpdate u o false k t = .ok (r, k')) : OnlyStamped t r.doc :=
  stamped_only (silent_stix hu hp (unforced_update h) ht hq)

/-- C58 for one CybOX step. -/
theorem C58_cybox_step_partial (v : String) (u : Updater) (hu : assoc cyboxUpdaters v = some u) (p : Page) (hp : cyboxPage v = some p)
    (o : Options) (k k' : Nat) (t : Node) (ht : p.Silent t) (hq : unlisted.Silent t) (r : Result)
    (h : stepUpdate u o false k t = .ok (r, k')) : OnlyStamped t r.doc :=
  stamped_only (silent_cybox hu hp (unforced_update h) ht hq)

/-- C58 for whole STIX updates: every step done has a page, and no page lists anything that is in the source. -/
theorem C58_stix_partial (w : World) (t : Node) (from_ to_ : Option String) (s g : String) (hs : inForce from_ (stixRootVersion t) = some s)
    (hg : inForce to_ (some "1.2.1") = some g) (hsg : Older stixReleases s g)
    (ht : ∀ v ∈ between stixReleases s g, ∃ p, stixPage v = some p ∧ p.Silent t) (hq : unlisted.Silent t) (o : Options) (k k' : Nat)
    (r : Result) (h : stixUpdate w t from_ to_ o false k = .ok (r, k')) : OnlyStamped t r.doc := by
  rw [stixUpdate_accepted w t o false k hs hg hsg] at h
  refine stamped_only (chain_done (fun _ d => Node.Rel Stamped t d) _ [] _ r k k' h (rel_refl stamped_refl t) ?_)
  intro pre v post u d k1 k2 r1 e hu hstep hi
  obtain ⟨p, hp, hs⟩ := ht v (by rw [List.nil_append] at e; rw [e]; simp)
  exact rel_stamped_trans hi (silent_stix hu hp (unforced_update hstep) (silent_rel hi hs) (silent_rel hi hq))

/-- C58 for whole CybOX updates. -/
theorem C58_cybox_partial (t : Node) (from_ to_ : Option String) (s g : String) (hs : cyboxSource t from_ = .ok (some s))
    (hg : inForce to_ (some "2.1") = some g) (hsg : Older cyboxReleases s g)
    (ht : ∀ v ∈ between cyboxReleases s g, ∃ p, cyboxPage v = some p ∧ p.Silent t) (hq : unlisted.Silent t) (o : Options) (k k' : Nat)
    (r : Result) (h : cyboxUpdate t from_ to_ o false k = .ok (r, k')) : OnlyStamped t r.doc := by
  rw [cyboxUpdate_accepted t o false k hs hg hsg] at h
  refine stamped_only (chain_done (fun _ d => Node.Rel Stamped t d) _ [] _ r k k' h (rel_refl stamped_refl t) ?_)
  intro pre v post u d k1 k2 r1 e hu hstep hi
  obtain ⟨p, hp, hs⟩ := ht v (by rw [List.nil_append] at e; rw [e]; simp)
  exact rel_stamped_trans hi (silent_cybox hu hp (unforced_update hstep) (silent_rel hi hs) (silent_rel hi hq))

/-! ### Cases that meet the hypotheses -/

/-- A test for `Silent`. -/
def Page.quiet (p : Page) (c : Ctx) : Bool :=
  decide (c.e.tag ∉ p.names) && p.nested.all (fun q => decide (c.e.tag ≠ q.2) || decide (c.anc.head? ≠ some q.1)) &&
    p.spaces.all (fun n => decide (c.e.tag.ns ≠ some n)) &&
    (match c.e.get? ⟨some "http://www.w3.org/2001/XMLSchema-instance", "type"⟩ with
      | none => true
      | some v => p.types.all (fun ty => decide (v.toList.dropWhile (· ≠ ':') ≠ ':' :: ty.2.toList)) &&
        decide (v.toList.dropWhile (· ≠ ':') ≠ ':' :: "GenericTestMechanismType".toList)) &&
    (!c.node.isEmptyElem || decide (c.e.tag ∉ p.optionals)) &&
    (match c.e.text with
      | none => true
      | some s => s.toList.all (fun ch => ch != ',' && ch != '&'))

theorem typed_drop {c : Ctx} {v x ty ns : String} (hv : c.e.get? ⟨some "http://www.w3.org/2001/XMLSchema-instance", "type"⟩ = some v)
    (h : c.TypedAs x ty ns) : v.toList.dropWhile (· ≠ ':') = ':' :: ty.toList := by
  obtain ⟨v', h1, ⟨rfl, h2, _⟩, _⟩ := h
  rw [hv] at h1
  cases h1
  simp only [String.toList_append, List.append_assoc]
  rw [List.dropWhile_append_of_pos (by intro a ha; simp only [decide_eq_true_eq]; rintro rfl; exact h2 ha)]
  rfl

theorem quiet_silent {p : Page} {t : Node} (h : t.elems.all p.quiet = true) : p.Silent t := by
  intro c hc hm
  have hq := List.all_eq_true.1 h c hc
  unfold Page.quiet at hq
  simp only [Bool.and_eq_true, decide_eq_true_eq] at hq
  obtain ⟨⟨⟨⟨⟨q1, q2⟩, q3⟩, q4⟩, q5⟩, q6⟩ := hq
  rcases hm with h1 | ⟨q, hq, h1, h2⟩ | ⟨n, hn', h1⟩ | ⟨ty, hty, x, h1⟩ | ⟨h1, h2⟩ | ⟨h1, ⟨x, h2⟩, _⟩ | ⟨h1, _, s, h3, h4⟩
  · exact q1 h1
  · simpa [h1, h2] using List.all_eq_true.1 q2 q hq
  · simpa [h1] using List.all_eq_true.1 q3 n hn'
  · have h1' := h1
    obtain ⟨v, hv, _⟩ := h1'
    rw [hv] at q4
    simp only [Bool.and_eq_true] at q4
    have := List.all_eq_true.1 q4.1 ty hty
    rw [decide_eq_true_eq] at this
    exact this (typed_drop hv h1)
  · rw [← isEmptyElem_iff] at h2
    simp [h2, h1] at q5
  · have h2' := h2
    obtain ⟨v, hv, _⟩ := h2'
    rw [hv] at q4
    simp only [Bool.and_eq_true, decide_eq_true_eq] at q4
    exact q4.2 (typed_drop hv h2)
  · rw [h3] at q6
    have q6 := List.all_eq_true.1 q6
    rcases h4 with h4 | ⟨a, b, h4⟩
    · simpa using q6 _ h4
    · simpa using q6 '&' (by rw [← h4]; simp)

/-- A package with a source that is not in a statement and an up-to-date type. -/
def docQuiet : Node :=
  stixDoc "1.0" [el nsCommon "Contributing_Sources" [] [el nsCommon "Source" [] [] (some "me")],
    el nsTTP "Title" [xsiType "stixVocabs:MotivationVocab-1.1"]]

example : stixRootVersion docQuiet = some "1.0" ∧ between stixReleases "1.0" "1.2" = ["1.0", "1.0.1", "1.1", "1.1.1"] ∧
    (∀ v ∈ ["1.0", "1.0.1", "1.1", "1.1.1"], ∃ p, stixPage v = some p ∧ p.Silent docQuiet) ∧ unlisted.Silent docQuiet ∧
    ∃ r, stixUpdate w0 docQuiet none (some "1.2") o0 false 0 = .ok r ∧ stixRootVersion r.1.doc = some "1.2" := by
  refine ⟨by decide +kernel, by decide, ?_, quiet_silent (by decide +kernel), ok_of_eval (by decide +kernel)⟩
  intro v hv
  simp only [List.mem_cons, List.not_mem_nil, or_false] at hv
  rcases hv with rfl | rfl | rfl | rfl
  · exact ⟨_, rfl, quiet_silent (by decide +kernel)⟩
  · exact ⟨_, rfl, quiet_silent (by decide +kernel)⟩
  · exact ⟨_, rfl, quiet_silent (by decide +kernel)⟩
  · exact ⟨_, rfl, quiet_silent (by decide +kernel)⟩

/-- A CybOX document with properties, a list of one item and a handle outside a mailslot. -/
def docQuiet2 : Node :=
  cyboxDoc v20 [el nsCyboxCore "Object" [] [el nsCyboxCore "Properties" []
    [el "http://cybox.mitre.org/objects#WinHandleObject-2" "Handle" [] [] (some "a b")]]]

example : cyboxSource docQuiet2 none = .ok (some "2.0") ∧ between cyboxReleases "2.0" "2.1" = ["2.0", "2.0.1"] ∧
    page20.Silent docQuiet2 ∧ page201.Silent docQuiet2 ∧ unlisted.Silent docQuiet2 ∧
    (assoc cyboxUpdaters "2.0").isSome = true ∧ (∃ r, stepUpdate cybox20 o0 false 0 docQuiet2 = .ok r ∧ r.1.doc ≠ docQuiet2) ∧
    ∃ r, cyboxUpdate docQuiet2 none none o0 false 0 = .ok r ∧ r.1.doc ≠ docQuiet2 :=
  ⟨by decide +kernel, by decide, quiet_silent (by decide +kernel), quiet_silent (by decide +kernel), quiet_silent (by decide +kernel),
    rfl, ok_of_eval (by decide +kernel), ok_of_eval (by decide +kernel)⟩

/-! ### Where it fails -/

mutual
theorem rel_tags {P : Elem → Elem → Prop} (hP : ∀ e e', P e e' → e'.tag = e.tag) {pos : Pos} {env env' : NsMap} {anc anc' : List QName} :
    ∀ {a b : Node}, Node.Rel P a b → (b.walk pos env' anc').map (·.e.tag) = (a.walk pos env anc).map (·.e.tag)
  | .elem e ks, .elem e' ks', h => by
    simp only [Node.Rel] at h
    simp only [Node.walk, List.map_cons, hP _ _ h.1]
    rw [rels_tags hP (env := e.decls ++ env) (anc := e.tag :: anc) h.2]
  | .other _ _, .other _ _, _ => rfl
  | .elem _ _, .other _ _, h => by simp only [Node.Rel] at h
  | .other _ _, .elem _ _, h => by simp only [Node.Rel] at h
theorem rels_tags {P : Elem → Elem → Prop} (hP : ∀ e e', P e e' → e'.tag = e.tag) {pos : Pos} {i : Nat} {env env' : NsMap}
    {anc anc' : List QName} : ∀ {a b : List Node}, Node.Rels P a b →
      (Node.walks pos i env' anc' b).map (·.e.tag) = (Node.walks pos i env anc a).map (·.e.tag)
  | [], [], _ => rfl
  | [], _ :: _, h => by simp only [Node.Rels] at h
  | _ :: _, [], h => by simp only [Node.Rels] at h
  | a :: as, b :: bs, h => by
    simp only [Node.Rels] at h
    simp only [Node.walks, List.map_append]
    rw [rel_tags hP (env := env) (anc := anc) h.1, rels_tags hP (env := env) (anc := anc) h.2]
end

theorem only_tags {t t' : Node} (h : OnlyStamped t t') : t'.elems.map (·.e.tag) = t.elems.map (·.e.tag) :=
  rel_tags (fun _ _ he => he.1.1) h

theorem only_types {t t' : Node} (h : OnlyStamped t t') : t'.vals xsiTypeAttr = t.vals xsiTypeAttr :=
  rel_vals (fun _ _ he => get_of_filter (by decide) he.1.2.2.2) h

/-- C58, negation: of each of these elements the page says nothing, and the step from 2.0.1 renames it or, since it is empty, removes
it. -/
theorem C58_unlisted_fails : ∀ q ∈ unlisted.names ++ unlisted.optionals, ∃ t r k, cyboxPage "2.0.1" = some page201 ∧ page201.Silent t ∧
    (∃ c ∈ t.elems, c.e.tag = q) ∧ stepUpdate cybox201 o0 false 0 t = .ok (r, k) ∧ ¬ OnlyStamped t r.doc ∧ ∀ c ∈ r.doc.elems, c.e.tag ≠ q := by
  intro q hq
  have key : ∀ q ∈ unlisted.names ++ unlisted.optionals,
      (cyboxDoc v201 [.elem ⟨q, [], [], none, none⟩ []]).elems.all page201.quiet = true ∧
      (∃ c ∈ (cyboxDoc v201 [.elem ⟨q, [], [], none, none⟩ []]).elems, c.e.tag = q) ∧
      (match stepUpdate cybox201 o0 false 0 (cyboxDoc v201 [.elem ⟨q, [], [], none, none⟩ []]) with
        | .ok r => r.1.doc.elems.all (fun c => decide (c.e.tag ≠ q))
        | .error _ => false) = true := by decide +kernel
  obtain ⟨h1, h2, h3⟩ := key q hq
  cases hs : stepUpdate cybox201 o0 false 0 (cyboxDoc v201 [.elem ⟨q, [], [], none, none⟩ []]) with
  | error x => rw [hs] at h3; cases h3
  | ok rk =>
    obtain ⟨r, k⟩ := rk
    rw [hs] at h3
    have h4 : ∀ c ∈ r.doc.elems, c.e.tag ≠ q := fun c hc => of_decide_eq_true (List.all_eq_true.1 h3 c hc)
    refine ⟨_, r, k, rfl, quiet_silent h1, h2, hs, fun ho => ?_, h4⟩
    obtain ⟨c, hc, e⟩ := h2
    have := List.mem_map_of_mem (f := fun c : Ctx => c.e.tag) hc
    rw [← only_tags ho] at this
    obtain ⟨d, hd, e'⟩ := List.mem_map.1 this
    exact h4 d hd (by rw [e', e])

/-- A 1.0.1 package with a motivation of the vocabulary of 1.0. -/
def docMotivated : Node := stixDoc "1.0.1" [el nsTTP "A" [xsiType "stixVocabs:MotivationVocab-1.0"]]

/-- C58, negation: the page on the step from 1.0.1 says that `MotivationVocab-1.0.1` is revised, and the step revises
`MotivationVocab-1.0` too. -/
theorem C58_types_fails : ∃ p r k, stixPage "1.0.1" = some p ∧ p.Silent docMotivated ∧
    stepUpdate (stix101 w0) o0 false 0 docMotivated = .ok (r, k) ∧ ¬ OnlyStamped docMotivated r.doc := by
  have h : ∃ r, stepUpdate (stix101 w0) o0 false 0 docMotivated = .ok r ∧ r.1.doc.vals xsiTypeAttr ≠ docMotivated.vals xsiTypeAttr :=
    ok_of_eval (by decide +kernel)
  obtain ⟨⟨r, k⟩, h1, h2⟩ := h
  exact ⟨_, r, k, rfl, quiet_silent (by decide +kernel), h1, fun ho => h2 (only_types ho)⟩

/-- C58, negation: the manual has no page on the update from 1.2 to 1.2.1, which renames the root and everything in it. -/
theorem C58_no_page_fails : stixPage "1.2" = none ∧ ∃ r k, stixUpdate w0 (stixDoc "1.2" []) none none o0 false 0 = .ok (r, k) ∧
    ¬ OnlyStamped (stixDoc "1.2" []) r.doc := by
  refine ⟨rfl, ?_⟩
  have h : ∃ r, stixUpdate w0 (stixDoc "1.2" []) none none o0 false 0 = .ok r ∧
      r.1.doc.elems.map (·.e.tag) ≠ (stixDoc "1.2" []).elems.map (·.e.tag) := ok_of_eval (by decide +kernel)
  obtain ⟨⟨r, k⟩, h1, h2⟩ := h
  exact ⟨r, k, h1, fun ho => h2 (only_tags ho)⟩

end Ramrod

import Verif.Lemmas.Find
import Verif.Props.Refuse
/-!
# What an update refuses: C08
-/

namespace Ramrod

open Samples

/-! ## Specification vocabulary -/

/-- How untranslatable content is described: the elements with a property, or the parents of the elements with a
property. -/
inductive Rule where
  | self (p : Ctx → Prop)
  | parent (p : Ctx → Prop)

/-- The element is untranslatable by the rule. -/
def Rule.Bad (t : Node) : Rule → Ctx → Prop
  | .self p, c => p c
  | .parent p, c => ∃ d ∈ t.elems, p d ∧ ∃ i, d.pos = i :: c.pos

/-- The elements of the second list are the parents of those of the first. -/
inductive Parents (t : Node) : List Ctx → List Ctx → Prop
  | nil : Parents t [] []
  | cons {d c : Ctx} {i : Nat} {ds cs : List Ctx} : c ∈ t.elems → d.pos = i :: c.pos → Parents t ds cs →
      Parents t (d :: ds) (c :: cs)

/-- The elements reported for a rule: in document order, a parent once per offending child. -/
inductive Rule.Reports (t : Node) : Rule → List Ctx → Prop
  | self {p : Ctx → Prop} {l : List Ctx} : l.Sublist t.elems → (∀ c, c ∈ l ↔ c ∈ t.elems ∧ p c) → Reports t (.self p) l
  | parent {p : Ctx → Prop} {ds l : List Ctx} : ds.Sublist t.elems → (∀ d, d ∈ ds ↔ d ∈ t.elems ∧ p d) →
      Parents t ds l → Reports t (.parent p) l

/-- The elements reported for several rules, one rule after the other. -/
inductive ReportsAll (t : Node) : List Rule → List Ctx → Prop
  | nil : ReportsAll t [] []
  | cons {r : Rule} {rs : List Rule} {l l' : List Ctx} : r.Reports t l → ReportsAll t rs l' → ReportsAll t (r :: rs) (l ++ l')

/-- The element is untranslatable by one of the rules. -/
def Untranslatable (rules : List Rule) (t : Node) (c : Ctx) : Prop := ∃ r ∈ rules, r.Bad t c

/-- An element below the root with this name. -/
def Below (ns name : String) (c : Ctx) : Prop := c.anc ≠ [] ∧ c.e.tag = ⟨some ns, name⟩

/-- CybOX 2.0.1 content without counterpart in 2.1 (cybox_2_0_1.py:40-87): a forwarded-protocol header, a task trigger
type, the type of an executable's section, a mailslot handle with a handle and another child node. -/
def rules201 : List Rule :=
  [ .self (Below "http://cybox.mitre.org/objects#HTTPSessionObject-2" "X_Forwarded_Proto"),
    .self (Below "http://cybox.mitre.org/objects#WinTaskObject-2" "Trigger_Type"),
    .self (fun c => c.e.tag = ⟨some "http://cybox.mitre.org/objects#WinExecutableFileObject-2", "Type"⟩ ∧
      ∃ q qs, c.anc = ⟨some "http://cybox.mitre.org/objects#WinExecutableFileObject-2", "Section"⟩ :: q :: qs),
    .self (fun c => Below "http://cybox.mitre.org/objects#WinMailslotObject-2" "Handle" c ∧
      (∃ e ks, Node.elem e ks ∈ c.kids ∧ e.tag = ⟨some "http://cybox.mitre.org/objects#WinHandleObject-2", "Handle"⟩) ∧
      1 < c.kids.length) ]

/-- The element has the given `xsi:type`. -/
def typeRule (ty ns : String) : Rule := .self (fun c => c.anc ≠ [] ∧ ∃ p, c.TypedAs p ty ns)

/-- `p` is the part of `v` before the first colon, or all of it. -/
def PrefixOf (v p : String) : Prop := ':' ∉ p.toList ∧ (v = p ∨ ∃ r, v = p ++ ":" ++ r)

/-- Every child element has an `xsi:type` with a prefix bound to `ns` (so also an element without child elements). -/
def KidsIn (ns : String) (c : Ctx) : Prop := ∀ e ks, Node.elem e ks ∈ c.kids →
  ∃ v p, e.get? ⟨some "http://www.w3.org/2001/XMLSchema-instance", "type"⟩ = some v ∧ PrefixOf v p ∧
    NsMap.get? (e.decls ++ c.env) (some p) = some ns

/-- An element of the TTP namespace all of whose child elements have types of `ns`. -/
def wrapRule (name ns : String) : Rule := .self (fun c => Below "http://stix.mitre.org/TTP-1" name c ∧ KidsIn ns c)

/-- STIX 1.0 content without counterpart in 1.0.1 (stix_1_0.py:35-107). -/
def rules10 : List Rule :=
  [ typeRule "CAPEC2.5InstanceType" "http://stix.mitre.org/extensions/AP#CAPEC2.5-1",
    typeRule "MAEC4.0InstanceType" "http://stix.mitre.org/extensions/Malware#MAEC4.0-1",
    wrapRule "Malware" "http://stix.mitre.org/extensions/Malware#MAEC4.0-1",
    wrapRule "Attack_Patterns" "http://stix.mitre.org/extensions/AP#CAPEC2.5-1" ]

/-- A campaign activity's date that is missing or no `xs:dateTime`. -/
def InvalidDate (w : World) (d : Ctx) : Prop :=
  d.e.tag = ⟨some "http://stix.mitre.org/common-1", "Date_Time"⟩ ∧
  (∃ q qs, d.anc = ⟨some "http://stix.mitre.org/Campaign-1", "Activity"⟩ :: q :: qs) ∧
  (d.e.text = none ∨ d.e.text = some "" ∨ w.validDateTime d.node = false)

/-- STIX 1.0.1 content without counterpart in 1.1 (stix_1_0_1.py:45-154). -/
def rules101 (w : World) : List Rule :=
  [ typeRule "MAEC4.0InstanceType" "http://stix.mitre.org/extensions/Malware#MAEC4.0-1",
    typeRule "CAPEC2.6InstanceType" "http://stix.mitre.org/extensions/AP#CAPEC2.6-1",
    .parent (InvalidDate w),
    wrapRule "Malware" "http://stix.mitre.org/extensions/Malware#MAEC4.0-1",
    wrapRule "Attack_Patterns" "http://stix.mitre.org/extensions/AP#CAPEC2.6-1" ]

/-- An element below the root, of one of the given namespaces, with this id. -/
def HasId (nss : List String) (i : String) (c : Ctx) : Prop :=
  c.anc ≠ [] ∧ (∃ n ∈ nss, c.e.tag.ns = some n) ∧ c.e.get? ⟨none, "id"⟩ = some i

/-- Two elements have this id. -/
def Shared (nss : List String) (t : Node) (i : String) : Prop :=
  ∃ c ∈ t.elems, ∃ d ∈ t.elems, c ≠ d ∧ HasId nss i c ∧ HasId nss i d

/-- The elements with this id, in document order. -/
def IdGroup (nss : List String) (t : Node) (i : String) (l : List Ctx) : Prop :=
  l.Sublist t.elems ∧ ∀ c, c ∈ l ↔ c ∈ t.elems ∧ HasId nss i c

/-- The table lists exactly the shared ids, each once, with its elements. -/
def IdGroups (nss : List String) (t : Node) (g : List (String × List Ctx)) : Prop :=
  (g.map (·.1)).Nodup ∧ ∀ i l, (i, l) ∈ g ↔ Shared nss t i ∧ IdGroup nss t i l

/-- The namespaces whose elements must have unique ids: those of CybOX 2.0.1 (cybox_2_0_1.py:289-372) ... -/
def known201 : List String :=
  ["http://cybox.mitre.org/objects#APIObject-2", "http://cybox.mitre.org/objects#AccountObject-2",
   "http://cybox.mitre.org/objects#AddressObject-2", "http://cybox.mitre.org/objects#ArtifactObject-2",
   "http://cybox.mitre.org/objects#CodeObject-2", "http://cybox.mitre.org/objects#CustomObject-1",
   "http://cybox.mitre.org/objects#DNSCacheObject-2", "http://cybox.mitre.org/objects#DNSQueryObject-2",
   "http://cybox.mitre.org/objects#DNSRecordObject-2", "http://cybox.mitre.org/objects#DeviceObject-2",
   "http://cybox.mitre.org/objects#DiskObject-2", "http://cybox.mitre.org/objects#DiskPartitionObject-2",
   "http://cybox.mitre.org/objects#EmailMessageObject-2", "http://cybox.mitre.org/objects#FileObject-2",
   "http://cybox.mitre.org/objects#GUIDialogboxObject-2", "http://cybox.mitre.org/objects#GUIObject-2",
   "http://cybox.mitre.org/objects#GUIWindowObject-2", "http://cybox.mitre.org/objects#HTTPSessionObject-2",
   "http://cybox.mitre.org/objects#LibraryObject-2", "http://cybox.mitre.org/objects#LinkObject-1",
   "http://cybox.mitre.org/objects#LinuxPackageObject-2", "http://cybox.mitre.org/objects#MemoryObject-2",
   "http://cybox.mitre.org/objects#MutexObject-2", "http://cybox.mitre.org/objects#NetworkFlowObject-2",
   "http://cybox.mitre.org/objects#NetworkConnectionObject-2", "http://cybox.mitre.org/objects#NetworkRouteEntryObject-2",
   "http://cybox.mitre.org/objects#NetworkRouteObject-2", "http://cybox.mitre.org/objects#NetworkSocketObject-2",
   "http://cybox.mitre.org/objects#NetworkSubnetObject-2", "http://cybox.mitre.org/objects#PDFFileObject-1",
   "http://cybox.mitre.org/objects#PacketObject-2", "http://cybox.mitre.org/objects#PipeObject-2",
   "http://cybox.mitre.org/objects#PortObject-2", "http://cybox.mitre.org/objects#ProcessObject-2",
   "http://cybox.mitre.org/objects#ProductObject-2", "http://cybox.mitre.org/objects#SemaphoreObject-2",
   "http://cybox.mitre.org/objects#SocketAddressObject-1", "http://cybox.mitre.org/objects#SystemObject-2",
   "http://cybox.mitre.org/objects#URIObject-2", "http://cybox.mitre.org/objects#UnixFileObject-2",
   "http://cybox.mitre.org/objects#UnixNetworkRouteEntryObject-2", "http://cybox.mitre.org/objects#UnixPipeObject-2",
   "http://cybox.mitre.org/objects#UnixProcessObject-2", "http://cybox.mitre.org/objects#UnixUserAccountObject-2",
   "http://cybox.mitre.org/objects#UnixVolumeObject-2", "http://cybox.mitre.org/objects#UserAccountObject-2",
   "http://cybox.mitre.org/objects#UserSessionObject-2", "http://cybox.mitre.org/objects#VolumeObject-2",
   "http://cybox.mitre.org/objects#WhoisObject-2", "http://cybox.mitre.org/objects#WinComputerAccountObject-2",
   "http://cybox.mitre.org/objects#WinCriticalSectionObject-2", "http://cybox.mitre.org/objects#WinDriverObject-2",
   "http://cybox.mitre.org/objects#WinEventLogObject-2", "http://cybox.mitre.org/objects#WinEventObject-2",
   "http://cybox.mitre.org/objects#WinExecutableFileObject-2", "http://cybox.mitre.org/objects#WinFileObject-2",
   "http://cybox.mitre.org/objects#WinHandleObject-2", "http://cybox.mitre.org/objects#WinKernelHookObject-2",
   "http://cybox.mitre.org/objects#WinKernelObject-2", "http://cybox.mitre.org/objects#WinMailslotObject-2",
   "http://cybox.mitre.org/objects#WinMemoryPageRegionObject-2", "http://cybox.mitre.org/objects#WinMutexObject-2",
   "http://cybox.mitre.org/objects#WinNetworkRouteEntryObject-2", "http://cybox.mitre.org/objects#WinNetworkShareObject-2",
   "http://cybox.mitre.org/objects#WinPipeObject-2", "http://cybox.mitre.org/objects#WinPrefetchObject-2",
   "http://cybox.mitre.org/objects#WinProcessObject-2", "http://cybox.mitre.org/objects#WinRegistryKeyObject-2",
   "http://cybox.mitre.org/objects#WinSemaphoreObject-2", "http://cybox.mitre.org/objects#WinServiceObject-2",
   "http://cybox.mitre.org/objects#WinSystemObject-2", "http://cybox.mitre.org/objects#WinSystemRestoreObject-2",
   "http://cybox.mitre.org/objects#WinTaskObject-2", "http://cybox.mitre.org/objects#WinThreadObject-2",
   "http://cybox.mitre.org/objects#WinUserAccountObject-2", "http://cybox.mitre.org/objects#WinVolumeObject-2",
   "http://cybox.mitre.org/objects#WinWaitableTimerObject-2", "http://cybox.mitre.org/objects#X509CertificateObject-2",
   "http://cybox.mitre.org/cybox-2", "http://cybox.mitre.org/common-2", "http://cybox.mitre.org/default_vocabularies-2",
   "http://cybox.mitre.org/extensions/platform#CPE2.3-1"]
/-- ... and in the step from 1.0.1 also those of STIX (stix_1_0_1.py:290-315). -/
def known101 : List String :=
  ["http://stix.mitre.org/Campaign-1", "http://stix.mitre.org/extensions/AP#CAPEC2.6-1",
   "http://stix.mitre.org/extensions/Address#CIQAddress3.0-1", "http://stix.mitre.org/CourseOfAction-1",
   "http://stix.mitre.org/ExploitTarget-1", "http://stix.mitre.org/extensions/StructuredCOA#Generic-1",
   "http://stix.mitre.org/extensions/TestMechanism#Generic-1", "http://stix.mitre.org/Incident-1",
   "http://stix.mitre.org/Indicator-2", "http://stix.mitre.org/extensions/Malware#MAEC4.0-1",
   "http://data-marking.mitre.org/Marking-1", "http://stix.mitre.org/extensions/TestMechanism#OpenIOC2010-1",
   "http://stix.mitre.org/extensions/TestMechanism#OVAL5.10-1",
   "http://data-marking.mitre.org/extensions/MarkingStructure#Simple-1",
   "http://stix.mitre.org/extensions/TestMechanism#Snort-1", "http://stix.mitre.org/stix-1",
   "http://stix.mitre.org/extensions/Identity#stix-ciq3.0-1", "http://stix.mitre.org/common-1",
   "http://stix.mitre.org/default_vocabularies-1", "http://stix.mitre.org/ThreatActor-1",
   "http://data-marking.mitre.org/extensions/MarkingStructure#TLP-1", "http://stix.mitre.org/TTP-1",
   "http://stix.mitre.org/extensions/Vulnerability#CVRF-1", "http://stix.mitre.org/extensions/TestMechanism#YARA-1"] ++ known201

/-- The elements that carry the CybOX version in STIX documents (stix_1_0.py:213-217, stix_1_0_1.py:382-388). -/
def embedded10 : List QName :=
  [⟨some "http://stix.mitre.org/stix-1", "Observables"⟩, ⟨some "http://stix.mitre.org/Incident-1", "Structured_Description"⟩,
    ⟨some "http://stix.mitre.org/TTP-1", "Observable_Characterization"⟩]
def embedded101 : List QName := embedded10 ++
  [⟨some "http://stix.mitre.org/TTP-1", "Targeted_Technical_Details"⟩,
    ⟨some "http://stix.mitre.org/CourseOfAction-1", "Parameter_Observables"⟩]

/-- Every CybOX root has version `v`. -/
def CyboxVersion (v : String) (t : Node) : Prop :=
  ∀ c ∈ t.elems, c.e.tag = ⟨some "http://cybox.mitre.org/cybox-2", "Observables"⟩ → RightCybox v c.e

/-- The first package, if any, has version `v`. -/
def StixVersion (v : String) (t : Node) : Prop := ∀ c, FirstPackage t c → RightStix v c.e

/-- What each step refuses: its untranslatable content; the namespaces in which ids must be unique, if it looks at ids;
whether it looks at `xsi:type` for this; and the versions it accepts. -/
inductive StepRules (w : World) : Updater → List Rule → Option (List String) → Bool → (Node → Prop) → Prop
  | cybox20 : StepRules w cybox20 [] none false (CyboxVersion "2.0")
  | cybox201 : StepRules w cybox201 rules201 (some known201) false (CyboxVersion "2.0.1")
  | stix10 : StepRules w stix10 rules10 none true (fun t => StixVersion "1.0" t ∧
      ∀ c ∈ t.elems, c.e.tag ∈ embedded10 → RightCybox "2.0" c.e)
  | stix101 : StepRules w (stix101 w) (rules101 w ++ rules201) (some known101) true (fun t => StixVersion "1.0.1" t ∧
      ∀ c ∈ t.elems, c.anc ≠ [] → c.e.tag ∈ embedded101 → RightCybox "2.0.1" c.e)
  | stix11 : StepRules w (stix11 w) [] none false (StixVersion "1.1")
  | stix111 : StepRules w stix111 [] none false (StixVersion "1.1.1")
  | stix12 : StepRules w stix12 [] none false (StixVersion "1.2")

/-- The table of shared ids, for the steps that look at ids. -/
def GroupsFor (nss : Option (List String)) (t : Node) (g : Option (List (String × List Ctx))) : Prop :=
  match nss with
  | none => g = none
  | some nss => ∃ d, g = some d ∧ IdGroups nss t d

/-! ## Helpers: reports -/

theorem parents_mem {t : Node} {ds l : List Ctx} (h : Parents t ds l) (c : Ctx) :
    c ∈ l ↔ c ∈ t.elems ∧ ∃ d ∈ ds, ∃ i, d.pos = i :: c.pos := by
  induction h with
  | nil => simp
  | @cons d c' i ds cs hc hp _ ih =>
    simp only [List.mem_cons, ih]
    constructor
    · rintro (rfl | ⟨h1, e, he, h2⟩)
      · exact ⟨hc, d, Or.inl rfl, i, hp⟩
      · exact ⟨h1, e, Or.inr he, h2⟩
    · rintro ⟨h1, e, rfl | he, j, h2⟩
      · left
        have := hp.symm.trans h2
        simp only [List.cons.injEq] at this
        exact elems_pos_inj h1 hc this.2.symm
      · exact Or.inr ⟨h1, e, he, j, h2⟩

theorem reports_mem {t : Node} {r : Rule} {l : List Ctx} (h : r.Reports t l) (c : Ctx) :
    c ∈ l ↔ c ∈ t.elems ∧ r.Bad t c := by
  cases h with
  | self _ h => exact h c
  | parent hs hm hp =>
    rw [parents_mem hp]
    simp only [Rule.Bad]
    constructor
    · rintro ⟨h1, d, hd, h2⟩; exact ⟨h1, d, ((hm d).1 hd).1, ((hm d).1 hd).2, h2⟩
    · rintro ⟨h1, d, hd, hpd, h2⟩; exact ⟨h1, d, (hm d).2 ⟨hd, hpd⟩, h2⟩

theorem reportsAll_mem {t : Node} {rs : List Rule} {l : List Ctx} (h : ReportsAll t rs l) (c : Ctx) :
    c ∈ l ↔ c ∈ t.elems ∧ Untranslatable rs t c := by
  induction h with
  | nil => simp [Untranslatable]
  | @cons r rs l l' h1 _ ih =>
    simp only [List.mem_append, ih, reports_mem h1, Untranslatable, List.mem_cons]
    constructor
    · rintro (⟨hc, h⟩ | ⟨hc, r', hr', h⟩)
      · exact ⟨hc, r, Or.inl rfl, h⟩
      · exact ⟨hc, r', Or.inr hr', h⟩
    · rintro ⟨hc, r', rfl | hr', h⟩
      · exact Or.inl ⟨hc, h⟩
      · exact Or.inr ⟨hc, r', hr', h⟩

theorem reportsAll_append {t : Node} {rs rs' : List Rule} {l l' : List Ctx} (h : ReportsAll t rs l)
    (h' : ReportsAll t rs' l') : ReportsAll t (rs ++ rs') (l ++ l') := by
  induction h with
  | nil => exact h'
  | cons h1 _ ih => rw [List.append_assoc]; exact .cons h1 ih

theorem reports_find {alts : List XAlt} {m : List (String × String)} {f : Node → List Ctx → List Ctx} {g : Ctx → Bool}
    {p : Ctx → Prop} {t : Node} (hf : ∀ cs, f t cs = cs.filter g)
    (hp : ∀ c ∈ t.elems, (alts.any (fun a => a.selects m c) = true ∧ g c = true) ↔ p c) :
    ∃ l, (⟨[], .union alts, m, f⟩ : Finder).find t = .ok l ∧ (Rule.self p).Reports t l := by
  refine ⟨_, find_union (by rw [hf]; rfl), ?_⟩
  rw [hf]
  refine .self (List.filter_sublist.trans List.filter_sublist) (fun c => ?_)
  simp only [Node.xpath, List.mem_filter, and_assoc]
  constructor
  · rintro ⟨h1, h2⟩; exact ⟨h1, (hp c h1).1 h2⟩
  · rintro ⟨h1, h2⟩; exact ⟨h1, (hp c h1).2 h2⟩

theorem findAll_cons {f : Finder} {fs : List Finder} {t : Node} {r : Rule} {rs : List Rule}
    (h : ∃ l, f.find t = .ok l ∧ r.Reports t l) (h' : ∃ l, findAll fs t = .ok l ∧ ReportsAll t rs l) :
    ∃ l, findAll (f :: fs) t = .ok l ∧ ReportsAll t (r :: rs) l := by
  obtain ⟨l, h1, h2⟩ := h
  obtain ⟨l', h3, h4⟩ := h'
  exact ⟨l ++ l', by simp only [findAll, h1, h3], .cons h2 h4⟩

theorem findAll_nil (t : Node) : ∃ l, findAll [] t = .ok l ∧ ReportsAll t [] l := ⟨[], rfl, .nil⟩

theorem filter_true {α : Type} (l : List α) : l = l.filter (fun _ => true) :=
  (List.filter_eq_self.2 (fun _ _ => rfl)).symm

theorem rel_iff {m : List (String × String)} {p n ns : String} (hm : assoc m p = some ns) {c : Ctx} :
    (([rel p n].any (fun a => a.selects m c)) = true ∧ true = true) ↔ Below ns n c := by
  simp only [List.any_cons, List.any_nil, Bool.or_false, rel, XAlt.selects, XName.resolve, hm, XPred.holds, Bool.and_true,
    Bool.and_eq_true, decide_eq_true_eq, Bool.false_or, and_true, Below]
  rw [Nat.one_le_iff_ne_zero, Ne, List.length_eq_zero_iff]
  exact And.comm

theorem anc_two {α : Type} {l : List α} {a : α} : (l.head? = some a ∧ 2 ≤ l.length) ↔ ∃ q qs, l = a :: q :: qs := by
  match l with
  | [] => simp
  | [b] => simp
  | b :: q :: qs => simp

theorem relIn_iff {m : List (String × String)} {p n q k ns ns' : String} (hm : assoc m p = some ns)
    (hm' : assoc m q = some ns') {c : Ctx} :
    (([relIn p n q k].any (fun a => a.selects m c)) = true) ↔
      (c.e.tag = ⟨some ns', k⟩ ∧ ∃ q qs, c.anc = ⟨some ns, n⟩ :: q :: qs) := by
  rw [← anc_two]
  simp only [List.any_cons, List.any_nil, Bool.or_false, relIn, XAlt.selects, XName.resolve, hm, hm', XPred.holds,
    Bool.and_true, Bool.and_eq_true, decide_eq_true_eq, Bool.false_or]

theorem findAll_201 (t : Node) : ∃ l, findAll cybox201Disallowed t = .ok l ∧ ReportsAll t rules201 l := by
  refine findAll_cons ?_ (findAll_cons ?_ (findAll_cons ?_ (findAll_cons ?_ (findAll_nil t))))
  · exact reports_find (fun cs => filter_true cs) (fun c _ => rel_iff (by decide +kernel))
  · exact reports_find (fun cs => filter_true cs) (fun c _ => rel_iff (by decide +kernel))
  · refine reports_find (fun cs => filter_true cs) (fun c _ => ?_)
    rw [relIn_iff (ns := "http://cybox.mitre.org/objects#WinExecutableFileObject-2")
      (ns' := "http://cybox.mitre.org/objects#WinExecutableFileObject-2") (by decide +kernel) (by decide +kernel)]
    exact and_iff_left rfl
  · refine reports_find (fun cs => rfl) (fun c _ => ?_)
    have h1 : assoc Tables.cybox201_nsmap "WinMailslotObj" = some "http://cybox.mitre.org/objects#WinMailslotObject-2" := by
      decide +kernel
    have h2 : assoc Tables.cybox201_nsmap "WinHandleObj" = some "http://cybox.mitre.org/objects#WinHandleObject-2" := by
      decide +kernel
    simp only [List.any_cons, List.any_nil, Bool.or_false, XAlt.selects, XName.resolve, h1, h2, XPred.holds,
      Bool.and_eq_true, decide_eq_true_eq, Bool.false_or, Below, gt_iff_lt]
    rw [Nat.one_le_iff_ne_zero, Ne, List.length_eq_zero_iff, List.any_eq_true]
    constructor
    · rintro ⟨⟨⟨h1, h2⟩, k, hk, h3⟩, h4⟩
      refine ⟨⟨h2, h1⟩, ?_, h4⟩
      cases k with
      | other _ _ => simp [Node.hasTag] at h3
      | elem e ks => exact ⟨e, ks, hk, of_decide_eq_true h3⟩
    · rintro ⟨⟨h2, h1⟩, ⟨e, ks, hk, h3⟩, h4⟩
      exact ⟨⟨⟨h1, h2⟩, .elem e ks, hk, decide_eq_true h3⟩, h4⟩

theorem pySplit_prefix {v p : String} : (pySplit ':' v).headD "" = p ↔ PrefixOf v p := by
  have fwd : PrefixOf v ((pySplit ':' v).headD "") := by
    unfold pySplit
    have hj := joinL_splitP ':' v.toList
    have hn : ∀ w ∈ splitP (fun c => c == ':') v.toList, ':' ∉ w := by
      intro w hw hc
      have := splitP_no_sep hw _ hc
      simp at this
    cases hs : splitP (fun c => c == ':') v.toList with
    | nil => exact absurd hs (splitP_ne_nil _ _)
    | cons w ws =>
      rw [hs] at hj hn
      simp only [List.map_cons, List.headD_cons]
      refine ⟨by rw [String.toList_ofList]; exact hn w (by simp), ?_⟩
      cases ws with
      | nil =>
        left
        apply String.ext
        rw [← hj]; simp [joinL]
      | cons x xs =>
        right
        refine ⟨String.ofList (joinL [':'] (x :: xs)), ?_⟩
        apply String.ext
        rw [← hj]
        simp [joinL, String.toList_append, String.toList_ofList]
  refine ⟨fun h => h ▸ fwd, ?_⟩
  rintro ⟨hp, h⟩
  have hw : ∀ c ∈ p.toList, (c == ':') = false := fun c hc => by
    simp only [beq_eq_false_iff_ne]; intro e; exact hp (e ▸ hc)
  unfold pySplit
  rcases h with rfl | ⟨r, rfl⟩
  · have := splitP_word (p := fun c => c == ':') (rest := []) hw
    simp only [List.append_nil, splitP] at this
    rw [this]
    simp [String.ofList_toList]
  · rw [String.toList_append, String.toList_append, List.append_assoc, splitP_word hw]
    simp [splitP, String.ofList_toList]

theorem allChildrenIn_iff {ns : String} {c : Ctx} : allChildrenIn ns c = true ↔ KidsIn ns c := by
  have key : ∀ (d : Ctx), (match getExtNamespace d with | .ok n => n == ns | .error _ => false) = true ↔
      ∃ v p, d.e.get? ⟨some "http://www.w3.org/2001/XMLSchema-instance", "type"⟩ = some v ∧ PrefixOf v p ∧
        NsMap.get? d.env (some p) = some ns := by
    intro d
    unfold getExtNamespace
    show (match (match d.e.get? ⟨some "http://www.w3.org/2001/XMLSchema-instance", "type"⟩ with
      | none => Except.error PyErr.keyError
      | some v => match NsMap.get? d.env (some ((pySplit ':' v).headD "")) with
        | none => .error .keyError
        | some ns => .ok ns : Except Err String) with | .ok n => n == ns | .error _ => false) = true ↔ _
    cases d.e.get? ⟨some "http://www.w3.org/2001/XMLSchema-instance", "type"⟩ with
    | none => simp
    | some v =>
      simp only [Option.some.injEq, exists_and_left, exists_eq_left']
      constructor
      · intro h
        refine ⟨_, pySplit_prefix.1 rfl, ?_⟩
        cases hn : NsMap.get? d.env (some ((pySplit ':' v).headD "")) with
        | none => rw [hn] at h; cases h
        | some n => rw [hn] at h; simp only [beq_iff_eq] at h; rw [h]
      · rintro ⟨p, hp, hn⟩
        rw [pySplit_prefix.2 hp, hn]
        simp
  unfold allChildrenIn KidsIn
  rw [List.all_eq_true]
  constructor
  · intro h e ks hk
    obtain ⟨i, hi⟩ := List.getElem?_of_mem hk
    exact (key _).1 (h _ (mem_childCtxs.2 ⟨i, e, ks, hi, rfl⟩))
  · intro h d hd
    obtain ⟨i, e, ks, hi, rfl⟩ := mem_childCtxs.1 hd
    exact (key _).2 (h e ks (List.mem_of_getElem? hi))

theorem wrap_find {m : List (String × String)} (hm : assoc m "ttp" = some "http://stix.mitre.org/TTP-1") (name ns : String)
    (t : Node) : ∃ l, (disallowedParent m name ns).find t = .ok l ∧ (wrapRule name ns).Reports t l := by
  refine reports_find (fun cs => rfl) (fun c _ => ?_)
  rw [allChildrenIn_iff]
  have := rel_iff (n := name) hm (c := c)
  simp only [and_true] at this
  rw [this]

theorem typedNodes_wellTyped {t : Node} (ht : WellTyped t) : ∀ c ∈ getTypedNodes t, ∃ p ty ns, c.TypedAs p ty ns := by
  intro c hc
  obtain ⟨h1, h2⟩ := List.mem_filter.1 hc
  obtain ⟨h3, h4⟩ := mem_descs_iff.1 h1
  rw [Elem.has_eq] at h2
  exact ht c h3 h4 (fun e => by rw [show c.e.get? tagXsiType = none from e] at h2; cases h2)

theorem type_find {t : Node} (ht : WellTyped t) (m : List (String × String)) (ty ns : String) :
    ∃ l, (disallowedType m ty ns).find t = .ok l ∧ (typeRule ty ns).Reports t l := by
  obtain ⟨l, h1, h2, h3⟩ := find_type (m := m) (ty := ty) (ns := ns) (typedNodes_wellTyped ht)
  exact ⟨l, h1, .self h2 h3⟩

theorem findAll_10 {t : Node} (ht : WellTyped t) : ∃ l, findAll stix10Disallowed t = .ok l ∧ ReportsAll t rules10 l :=
  findAll_cons (type_find ht _ _ _) (findAll_cons (type_find ht _ _ _)
    (findAll_cons (wrap_find (by decide +kernel) _ _ t) (findAll_cons (wrap_find (by decide +kernel) _ _ t) (findAll_nil t))))

theorem dateTimeOk_iff {w : World} {c : Ctx} : (!dateTimeOk w c) = true ↔
    (c.e.text = none ∨ c.e.text = some "" ∨ w.validDateTime c.node = false) := by
  unfold dateTimeOk
  cases h : c.e.text with
  | none => simp [falsy]
  | some s =>
    cases hv : w.validDateTime c.node <;> simp [falsy]

theorem parents_filterMap {t : Node} : ∀ {ds : List Ctx}, (∀ d ∈ ds, d ∈ t.elems ∧ d.anc ≠ []) →
    Parents t ds (ds.filterMap (fun c => t.ctxAt c.pos.tail))
  | [], _ => .nil
  | d :: ds, h => by
    obtain ⟨hd, ha⟩ := h d (by simp)
    obtain ⟨c, hc, i, hi, _⟩ := elems_parent hd ha
    have hf : t.ctxAt d.pos.tail = some c := by
      unfold Node.ctxAt
      rw [hi, List.tail_cons]
      have := find_filter_pos (t := t) (sel := fun _ => true) hc
      simpa using this
    rw [List.filterMap_cons, hf]
    exact .cons hc hi (parents_filterMap (fun e he => h e (by simp [he])))

theorem date_find (w : World) (t : Node) :
    ∃ l, (disallowedDateTime w).find t = .ok l ∧ (Rule.parent (InvalidDate w)).Reports t l := by
  have hm : ∀ d, d ∈ (t.xpath Tables.stix101_nsmap [relIn "campaign" "Activity" "stixCommon" "Date_Time"]).filter
      (fun c => !dateTimeOk w c) ↔ d ∈ t.elems ∧ InvalidDate w d := by
    intro d
    simp only [Node.xpath, List.mem_filter, and_assoc]
    rw [relIn_iff (ns := "http://stix.mitre.org/Campaign-1") (ns' := "http://stix.mitre.org/common-1") (by decide +kernel)
      (by decide +kernel), dateTimeOk_iff]
    simp only [InvalidDate, and_assoc]
  refine ⟨_, find_union rfl, .parent (List.filter_sublist.trans List.filter_sublist) hm (parents_filterMap ?_)⟩
  intro d hd
  obtain ⟨h1, _, ⟨q, qs, h2⟩, _⟩ := (hm d).1 hd
  exact ⟨h1, by rw [h2]; simp⟩

theorem findAll_101 (w : World) {t : Node} (ht : WellTyped t) :
    ∃ l, findAll (stix101Disallowed w) t = .ok l ∧ ReportsAll t (rules101 w) l :=
  findAll_cons (type_find ht _ _ _) (findAll_cons (type_find ht _ _ _) (findAll_cons (date_find w t)
    (findAll_cons (wrap_find (by decide +kernel) _ _ t) (findAll_cons (wrap_find (by decide +kernel) _ _ t) (findAll_nil t)))))

/-! ## Helpers: ids -/

theorem hasId_iff {nss : List String} {m : List (String × String)} (hm : ∀ n, n ∈ nss ↔ n ∈ m.map (·.2)) {t : Node}
    {i : String} {c : Ctx} : c ∈ (t.descs.filter (fun c =>
      c.e.has attrId && (match c.e.tag.ns with | none => false | some n => n ∈ m.map (·.2)))).filter
        (fun c => decide (c.e.get? attrId = some i)) ↔ c ∈ t.elems ∧ HasId nss i c := by
  simp only [List.mem_filter, Bool.and_eq_true, decide_eq_true_eq, HasId, and_assoc]
  rw [mem_descs_iff, and_assoc]
  constructor
  · rintro ⟨h1, h2, h3, h4, h5⟩
    refine ⟨h1, h2, ?_, h5⟩
    split at h4
    · cases h4
    · next n hn => exact ⟨n, (hm n).2 (of_decide_eq_true h4), hn⟩
  · rintro ⟨h1, h2, ⟨n, hn, h4⟩, h5⟩
    refine ⟨h1, h2, ?_, ?_, h5⟩
    · rw [Elem.has_eq, show c.e.get? attrId = some i from h5]; rfl
    · rw [h4]; exact decide_eq_true ((hm n).1 hn)

theorem nodup_of_map {α β : Type} (f : α → β) {l : List α} (h : (l.map f).Nodup) : l.Nodup := by
  induction l with
  | nil => exact List.nodup_nil
  | cons a l ih =>
    simp only [List.map_cons, List.nodup_cons] at h ⊢
    exact ⟨fun ha => h.1 (List.mem_map.2 ⟨a, ha, rfl⟩), ih h.2⟩

theorem ctx_nodup {t : Node} {l : List Ctx} (h : l.Sublist t.elems) : l.Nodup :=
  h.nodup (nodup_of_map (·.pos) (elems_nodup t))

theorem sublist_eq_filter {α : Type} [DecidableEq α] {l L : List α} (h : l.Sublist L) (hn : L.Nodup) :
    l = L.filter (fun a => decide (a ∈ l)) := by
  induction h with
  | slnil => rfl
  | @cons l L a h ih =>
    obtain ⟨h1, h2⟩ := List.nodup_cons.1 hn
    rw [List.filter_cons_of_neg (by simpa using fun h' => h1 (h.subset h'))]
    exact ih h2
  | @cons_cons l L a h ih =>
    obtain ⟨h1, h2⟩ := List.nodup_cons.1 hn
    rw [List.filter_cons_of_pos (by simp)]
    congr 1
    refine (ih h2).trans (List.filter_congr (fun x hx => ?_))
    have : x ≠ a := fun e => h1 (e ▸ hx)
    simp [this]

theorem sublist_unique {α : Type} [DecidableEq α] {l l' L : List α} (h : l.Sublist L) (h' : l'.Sublist L) (hn : L.Nodup)
    (hm : ∀ a, a ∈ l ↔ a ∈ l') : l = l' := by
  rw [sublist_eq_filter h hn, sublist_eq_filter h' hn]
  refine List.filter_congr (fun x _ => ?_)
  simp only [hm]

theorem idGroup_unique {nss : List String} {t : Node} {i : String} {l l' : List Ctx} (h : IdGroup nss t i l)
    (h' : IdGroup nss t i l') : l = l' :=
  sublist_unique h.1 h'.1 (nodup_of_map (·.pos) (elems_nodup t)) (fun c => (h.2 c).trans (h'.2 c).symm)

theorem idGroup_exists (nss : List String) (t : Node) (i : String) : ∃ l, IdGroup nss t i l := by
  refine ⟨t.elems.filter (fun c => decide (c.anc ≠ [] ∧ (∃ n ∈ nss, c.e.tag.ns = some n) ∧
    c.e.get? ⟨none, "id"⟩ = some i)), List.filter_sublist, fun e => ?_⟩
  rw [List.mem_filter, decide_eq_true_eq]; rfl

theorem idGroups_getDuplicates {nss : List String} {m : List (String × String)} (hm : ∀ n, n ∈ nss ↔ n ∈ m.map (·.2))
    (t : Node) : IdGroups nss t (getDuplicates m t) := by
  refine ⟨groupDups_nodup _, fun i l => ?_⟩
  unfold getDuplicates
  rw [mem_groupDups]
  have hg : IdGroup nss t i ((t.descs.filter (fun c =>
      c.e.has attrId && (match c.e.tag.ns with | none => false | some n => n ∈ m.map (·.2)))).filter
        (fun c => decide (c.e.get? attrId = some i))) :=
    ⟨List.filter_sublist.trans (List.filter_sublist.trans (List.tail_sublist _)), fun c => hasId_iff hm⟩
  constructor
  · rintro ⟨rfl, h⟩
    obtain ⟨a, ha, b, hb, hab⟩ := (nodup_one_lt (ctx_nodup hg.1)).1 h
    obtain ⟨ha1, ha2⟩ := (hg.2 a).1 ha
    obtain ⟨hb1, hb2⟩ := (hg.2 b).1 hb
    exact ⟨⟨a, ha1, b, hb1, hab, ha2, hb2⟩, hg⟩
  · rintro ⟨⟨a, ha1, b, hb1, hab, ha2, hb2⟩, hl⟩
    refine ⟨idGroup_unique hl hg, ?_⟩
    exact (nodup_one_lt (ctx_nodup hl.1)).2 ⟨a, (hl.2 a).2 ⟨ha1, ha2⟩, b, (hl.2 b).2 ⟨hb1, hb2⟩, hab⟩

theorem joined_eq : stix101Cybox.nsmap = Tables.stix101_nsmap ++ Tables.cybox201_nsmap := by
  unfold stix101Cybox cybox201Cls; decide +kernel

theorem known_joined : ∀ n, n ∈ known101 ↔ n ∈ stix101Cybox.nsmap.map (·.2) := by
  intro n; rw [joined_eq, List.map_append]; rfl

theorem hasId_mono {nss nss' : List String} (h : ∀ n ∈ nss, n ∈ nss') {i : String} {c : Ctx} (hc : HasId nss i c) :
    HasId nss' i c := by
  obtain ⟨h1, ⟨n, hn, h2⟩, h3⟩ := hc
  exact ⟨h1, ⟨n, h n hn, h2⟩, h3⟩

theorem idGroups_101 (t : Node) : IdGroups known101 t (stix101GetDuplicates t) := by
  have ha := idGroups_getDuplicates (nss := Tables.stix101_nsmap.map (·.2)) (m := Tables.stix101_nsmap) (fun _ => Iff.rfl) t
  have hb := idGroups_getDuplicates (nss := known101) known_joined t
  have hk : KeysNodup (stix101GetDuplicates t) := dictUpdate_nodup (groupDups_nodup _) _
  refine ⟨hk, fun i l => ?_⟩
  rw [keysNodup_mem_assoc hk]
  unfold stix101GetDuplicates
  rw [assoc_dictUpdate _ _ (show KeysNodup (getDuplicates stix101Cybox.nsmap t) from groupDups_nodup _)]
  cases hbi : assoc (getDuplicates stix101Cybox.nsmap t) i with
  | some l' =>
    have := (hb.2 i l').1 ((keysNodup_mem_assoc (groupDups_nodup _)).2 hbi)
    simp only [Option.some_or, Option.some.injEq]
    constructor
    · rintro rfl; exact this
    · rintro ⟨_, h⟩; exact idGroup_unique this.2 h
  | none =>
    have hn : ¬ Shared known101 t i := by
      rintro ⟨c, hc, d, hd, hcd, h1, h2⟩
      obtain ⟨g, hg⟩ := idGroup_exists known101 t i
      have := (keysNodup_mem_assoc (show KeysNodup (getDuplicates stix101Cybox.nsmap t) from groupDups_nodup _)).1
        ((hb.2 i g).2 ⟨⟨c, hc, d, hd, hcd, h1, h2⟩, hg⟩)
      rw [hbi] at this; cases this
    simp only [Option.none_or]
    constructor
    · intro h
      obtain ⟨⟨c, hc, d, hd, hcd, h1, h2⟩, _⟩ := (ha.2 i l).1 ((keysNodup_mem_assoc (groupDups_nodup _)).2 h)
      have hsub : ∀ n ∈ Tables.stix101_nsmap.map (·.2), n ∈ known101 := fun n hn => List.mem_append_left _ hn
      exact absurd ⟨c, hc, d, hd, hcd, hasId_mono hsub h1, hasId_mono hsub h2⟩ hn
    · rintro ⟨h, _⟩; exact absurd h hn

/-! ## Helpers: versions -/

theorem stixCheck_pass {u : Cls} (hm : assoc u.nsmap "stix" = some "http://stix.mitre.org/stix-1")
    (hr : u.xpathRoots = xpathStixRoots) {t : Node} (hf : ∀ c, FirstPackage t c → RightStix u.version c.e) :
    stixCheckVersion u t = .ok () := by
  cases hx : t.elems.find? (fun d => decide (d.e.tag = ⟨some "http://stix.mitre.org/stix-1", "STIX_Package"⟩)) with
  | some c =>
    obtain ⟨x, a, h1, h2, h3⟩ := hf c hx
    refine (stixCheck_first hm hr hx (fun y hy hmal => ?_) (fun hmal => hmal ⟨a, h3⟩)).1 ⟨x, a, h1, h2, h3⟩
    have := hy.1.symm.trans h1.1
    cases this
    exact hmal ⟨a, h2⟩
  | none =>
    have h := rootNodes_head (m := u.nsmap) hm (t := t)
    rw [hx] at h
    unfold stixCheckVersion Cls.rootNodes
    rw [hr]
    cases hl : t.xpath u.nsmap xpathStixRoots with
    | nil => rfl
    | cons d ds => rw [hl] at h; cases h

theorem cyboxCheck_pass {u : Cls} {v : String} (hv : u.version = v) {tags : List QName} {t : Node}
    (hsel : ∀ c ∈ t.elems, u.xpathRoots.any (fun a => a.selects u.nsmap c) = true → c.e.tag ∈ tags)
    (h : ∀ c ∈ t.elems, u.xpathRoots.any (fun a => a.selects u.nsmap c) = true → c.e.tag ∈ tags → RightCybox v c.e) :
    cyboxCheckVersion u t = .ok () := by
  unfold cyboxCheckVersion
  rw [checkRoots_ok]
  intro c hc
  obtain ⟨h1, h2⟩ := List.mem_filter.1 hc
  rw [hv]
  exact h c h1 h2 (hsel c h1 h2)

theorem abs_tag {m : List (String × String)} {alts : List XAlt} {tags : List QName}
    (h : (alts.all fun a => decide (a.tag.resolve m ∈ tags)) = true) {c : Ctx}
    (hs : alts.any (fun a => a.selects m c) = true) : c.e.tag ∈ tags := by
  obtain ⟨a, ha, hs⟩ := List.any_eq_true.1 hs
  have h1 := of_decide_eq_true (List.all_eq_true.1 h a ha)
  simp only [XAlt.selects, Bool.and_eq_true, decide_eq_true_eq] at hs
  rw [hs.1.1]; exact h1

theorem rel_anc {m : List (String × String)} {alts : List XAlt}
    (h : (alts.all fun a => !a.abs) = true) {c : Ctx}
    (hs : alts.any (fun a => a.selects m c) = true) : c.anc ≠ [] := by
  obtain ⟨a, ha, hs⟩ := List.any_eq_true.1 hs
  have h1 := List.all_eq_true.1 h a ha
  simp only [Bool.not_eq_true'] at h1
  simp only [XAlt.selects, Bool.and_eq_true, decide_eq_true_eq, h1, Bool.false_or] at hs
  intro e
  rw [e] at hs
  have := hs.1.2
  split at this <;> simp at this

/-- What a step's check says when the versions are right. -/
theorem check_spec {w : World} {u : Updater} {rules : List Rule} {nss : Option (List String)} {ty : Bool}
    {V : Node → Prop} (hu : StepRules w u rules nss ty V) {o : Options} {t : Node} (ht : ty = true → WellTyped t)
    (hv : o.checkVersions = true → V t) :
    ∃ l g, ReportsAll t rules l ∧ GroupsFor nss t g ∧
      u.check o t = if l.isEmpty && (g.getD []).isEmpty then .ok () else .error (.update (some l) g) := by
  have idle : ∀ {c : Bool} {x : Except Err Unit}, (c = true → x = .ok ()) → (if c = true then x else .ok ()) = .ok () :=
    fun h => by split <;> simp_all
  cases hu with
  | cybox20 =>
    refine ⟨[], none, .nil, rfl, idle (fun ho => ?_)⟩
    exact cyboxCheck_pass rfl (tags := [⟨some "http://cybox.mitre.org/cybox-2", "Observables"⟩])
      (fun c _ => abs_tag (by decide +kernel)) (fun c hc _ h => hv ho c hc (by simpa using h))
  | cybox201 =>
    obtain ⟨l, hl, hr⟩ := findAll_201 t
    refine ⟨l, some (getDuplicates Tables.cybox201_nsmap t), hr, ⟨_, rfl, idGroups_getDuplicates (fun _ => Iff.rfl) t⟩, ?_⟩
    show cybox201Check _ o t = _
    unfold cybox201Check
    rw [idle (fun ho => cyboxCheck_pass rfl (tags := [⟨some "http://cybox.mitre.org/cybox-2", "Observables"⟩])
      (fun c _ => abs_tag (by decide +kernel)) (fun c hc _ h => hv ho c hc (by simpa using h)))]
    simp only [cybox201Cls, hl]
    rfl
  | stix10 =>
    obtain ⟨l, hl, hr⟩ := findAll_10 (ht rfl)
    refine ⟨l, none, hr, rfl, ?_⟩
    show stix10Check o t = _
    unfold stix10Check
    rw [idle (fun ho => ?_)]
    · simp only [stix10GetDisallowed, stix10Cls, hl]
      simp
    · rw [stixCheck_pass (u := stix10Cls) (by decide +kernel) rfl (hv ho).1]
      exact cyboxCheck_pass (u := stix10Cybox) rfl (tags := embedded10)
        (fun c _ => abs_tag (by decide +kernel)) (fun c hc _ h => (hv ho).2 c hc h)
  | stix101 =>
    obtain ⟨l, hl, hr⟩ := findAll_101 w (ht rfl)
    obtain ⟨l', hl', hr'⟩ := findAll_201 t
    refine ⟨l ++ l', some (stix101GetDuplicates t), reportsAll_append hr hr', ⟨_, rfl, idGroups_101 t⟩, ?_⟩
    show stix101Check w o t = _
    unfold stix101Check
    rw [idle (fun ho => ?_)]
    · have : stix101Cybox.disallowed = cybox201Disallowed := rfl
      simp only [stix101GetDisallowed, hl, this, hl']
      rfl
    · rw [stixCheck_pass (u := stix101Cls w) (show assoc Tables.stix101_nsmap "stix" = _ by decide +kernel) rfl (hv ho).1]
      exact cyboxCheck_pass (u := stix101Cybox) rfl (tags := embedded101)
        (fun c _ => abs_tag (by decide +kernel)) (fun c hc hs h => (hv ho).2 c hc (rel_anc (by decide +kernel) hs) h)
  | stix11 =>
    exact ⟨[], none, .nil, rfl, idle (fun ho => stixCheck_pass (u := stix11Cls w)
      (show assoc Tables.stix11_nsmap "stix" = _ by decide +kernel) rfl (hv ho))⟩
  | stix111 =>
    exact ⟨[], none, .nil, rfl, idle (fun ho => stixCheck_pass (u := stix111Cls) (by decide +kernel) rfl (hv ho))⟩
  | stix12 =>
    exact ⟨[], none, .nil, rfl, idle (fun ho => stixCheck_pass (u := stix12Cls) (by decide +kernel) rfl (hv ho))⟩

theorem stepRules_registered {w : World} {u : Updater} {rules : List Rule} {nss : Option (List String)} {ty : Bool}
    {V : Node → Prop} (hu : StepRules w u rules nss ty V) : Registered w u := by cases hu <;> constructor

/-! ## C08 -/

/-- C08.  When the versions are right (or not checked) and, for the two steps that look at types, every `xsi:type` is a
bound qualified name: the unforced step raises `UpdateError` exactly if the document has untranslatable content or (in the
steps that look at ids) a shared id; and the error lists exactly the untranslatable elements, rule by rule in document
order, and exactly the shared ids with their elements. -/
theorem C08_update_error_partial (w : World) (u : Updater) (rules : List Rule) (nss : Option (List String)) (ty : Bool)
    (V : Node → Prop) (hu : StepRules w u rules nss ty V) (o : Options) (k : Nat) (t : Node) (ht : ty = true → WellTyped t)
    (hv : o.checkVersions = true → V t) :
    ((∃ dis dups, stepUpdate u o false k t = .error (.update dis dups)) ↔
      (∃ c ∈ t.elems, Untranslatable rules t c) ∨ (∃ ns, nss = some ns ∧ ∃ i, Shared ns t i)) ∧
    (∀ dis dups, stepUpdate u o false k t = .error (.update dis dups) →
      (∃ l, dis = some l ∧ ReportsAll t rules l) ∧ GroupsFor nss t dups) := by
  obtain ⟨l, g, hr, hg, hc⟩ := check_spec hu (o := o) ht hv
  have hstep : ∀ dis dups, stepUpdate u o false k t = .error (.update dis dups) ↔
      u.check o t = .error (.update dis dups) := by
    intro dis dups
    simp only [stepUpdate, tryUpdate, Bool.and_false, Bool.false_eq_true, if_false]
    constructor
    · intro h
      split at h
      · cases h
      · next y hy =>
        simp only [Except.error.injEq] at h
        subst h
        split at hy
        · next z hz => rw [hz]; cases hy; rfl
        · have := noRefuse_update (stepRules_registered hu) _ _ _ hy
          cases this
    · intro h; rw [h]
  simp only [hstep]
  have hempty : (l.isEmpty && (g.getD []).isEmpty) = true ↔
      ¬ ((∃ c ∈ t.elems, Untranslatable rules t c) ∨ (∃ ns, nss = some ns ∧ ∃ i, Shared ns t i)) := by
    rw [not_or, Bool.and_eq_true]
    refine and_congr ?_ ?_
    · rw [List.isEmpty_iff, List.eq_nil_iff_forall_not_mem]
      simp only [reportsAll_mem hr]
      exact ⟨fun h ⟨c, hc, hb⟩ => h c ⟨hc, hb⟩, fun h c hc => h ⟨c, hc.1, hc.2⟩⟩
    · cases nss with
      | none => cases hg; simp
      | some ns =>
        obtain ⟨d, rfl, hd⟩ := hg
        simp only [Option.getD_some, List.isEmpty_iff, List.eq_nil_iff_forall_not_mem, Option.some.injEq]
        constructor
        · rintro h ⟨_, rfl, i, hi⟩
          obtain ⟨c, hc, c', hc', hne, h1, h2⟩ := hi
          obtain ⟨l', hl'⟩ := idGroup_exists ns t i
          exact h (i, l') ((hd.2 i l').2 ⟨⟨c, hc, c', hc', hne, h1, h2⟩, hl'⟩)
        · rintro h ⟨i, l'⟩ hm
          exact h ⟨ns, rfl, i, ((hd.2 i l').1 hm).1⟩
  rw [hc]
  by_cases he : (l.isEmpty && (g.getD []).isEmpty) = true
  · rw [if_pos he]
    refine ⟨⟨?_, fun h => absurd h (hempty.1 he)⟩, ?_⟩
    · rintro ⟨_, _, h⟩; cases h
    · intro _ _ h; cases h
  · rw [if_neg he]
    refine ⟨⟨fun _ => Classical.byContradiction (fun hn => he (hempty.2 hn)), fun _ => ⟨_, _, rfl⟩⟩, ?_⟩
    intro dis dups h
    cases h
    exact ⟨⟨l, rfl, hr⟩, hg⟩

/-- A way to check concrete documents. -/
theorem wellTyped_of_eval {t : Node} (h : (t.elems.all fun c => c.anc.isEmpty || (c.e.get? tagXsiType).isNone ||
    ((getTypeInfo c.e).isOk && (getExtNamespace c).isOk)) = true) : WellTyped t := by
  intro c hc ha hx
  have h1 := List.all_eq_true.1 h c hc
  simp only [Bool.or_eq_true, List.isEmpty_iff, ha, false_or, Bool.and_eq_true] at h1
  rcases h1 with h1 | ⟨h1, h2⟩
  · exact absurd (Option.isNone_iff_eq_none.1 h1) hx
  · cases hi : getTypeInfo c.e with
    | error x => rw [hi] at h1; cases h1
    | ok a =>
      obtain ⟨p, ty⟩ := a
      obtain ⟨s, hs, hq⟩ := getTypeInfo_ok.1 hi
      cases hn : getExtNamespace c with
      | error x => rw [hn] at h2; cases h2
      | ok ns => exact ⟨p, ty, ns, s, hs, hq, (getExtNamespace_ok hs hq).1 hn⟩

/-- Turns an evaluated failure into an existential. -/
theorem err_of_eval {α : Type} {x : Except Err α} {P : Err → Bool} (h : (match x with | .ok _ => false | .error e => P e) = true) :
    ∃ e, x = .error e ∧ P e = true := by
  cases x with
  | ok _ => cases h
  | error e => exact ⟨e, rfl, h⟩

/-- Options without version checks. -/
def oNoCheck : Options := { checkVersions := false, newId := o0.newId }

example : WellTyped doc10bad := wellTyped_of_eval (by decide +kernel)

/-- The error for the sample 1.0 package lists the CAPEC instance before the MAEC instance; the element around them is not
listed, as its children are of both kinds. -/
example : ∃ l, stepUpdate stix10 oNoCheck false 0 doc10bad = .error (.update (some l) none) ∧
    l.map (·.pos) = [[1, 0], [0, 0]] := by
  obtain ⟨x, h1, h2⟩ := err_of_eval (x := stepUpdate stix10 oNoCheck false 0 doc10bad)
    (P := fun x => match x with | .update (some l) none => decide (l.map (·.pos) = [[1, 0], [0, 0]]) | _ => false)
    (by decide +kernel)
  split at h2
  · next l => exact ⟨l, h1, of_decide_eq_true h2⟩
  · cases h2

/-- The sample CybOX document: one header without counterpart and one shared id are refused, with their positions. -/
example : ∃ l g, stepUpdate cybox201 o0 false 0 cybox201bad = .error (.update (some l) (some g)) ∧
    l.map (·.pos) = [[2]] ∧ g.map (fun x => (x.1, x.2.map (·.pos))) = [("d", [[0], [1]])] := by
  obtain ⟨x, h1, h2⟩ := err_of_eval (x := stepUpdate cybox201 o0 false 0 cybox201bad)
    (P := fun x => match x with
      | .update (some l) (some g) => decide (l.map (·.pos) = [[2]]) &&
          decide (g.map (fun x => (x.1, x.2.map (·.pos))) = [("d", [[0], [1]])])
      | _ => false)
    (by decide +kernel)
  split at h2
  · next l g =>
    simp only [Bool.and_eq_true, decide_eq_true_eq] at h2
    exact ⟨l, g, h1, h2.1, h2.2⟩
  · cases h2

/-- A 1.0 package with a MAEC instance and, elsewhere, an `xsi:type` without prefix. -/
def docPlainType : Node :=
  stixDoc "1.0" [el nsTTP "Malware_Instance" [xsiType "maec:MAEC4.0InstanceType"] [], el nsTTP "Resource" [xsiType "plain"] []]

/-- C08 fails for documents with a malformed `xsi:type`: untranslatable content is there, but `ValueError` is raised. -/
theorem C08_malformed_type_fails : (∃ c ∈ docPlainType.elems, Untranslatable rules10 docPlainType c) ∧
    stepUpdate stix10 oNoCheck false 0 docPlainType = .error .valueError := by
  refine ⟨?_, by decide +kernel⟩
  have h : (docPlainType.elems.any fun c => decide (c.anc ≠ []) &&
      (decide (c.e.get? tagXsiType = some "maec:MAEC4.0InstanceType") && decide (NsMap.get? c.env (some "maec") = some "http://stix.mitre.org/extensions/Malware#MAEC4.0-1"))) = true := by
    decide +kernel
  obtain ⟨c, hc, h⟩ := List.any_eq_true.1 h
  simp only [Bool.and_eq_true, decide_eq_true_eq] at h
  exact ⟨c, hc, _, List.mem_cons_of_mem _ List.mem_cons_self, h.1, "maec", "maec:MAEC4.0InstanceType", h.2.1,
    ⟨by decide, by decide, by decide⟩, h.2.2⟩

end Ramrod

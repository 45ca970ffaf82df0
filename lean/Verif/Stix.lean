import Verif.Cybox
/-!
# ramrod/stix/*.py
-/

namespace Ramrod

/-- External functions the STIX updaters call and that are not modelled: the `xs:dateTime` validation of
libxml2 (ramrod/stix/stix_1_0_1.py:127-140, a function of the validated element), and
`etree.fromstring` on a text with interpolated markup (ramrod/stix/stix_1_1.py:90, 137; `none` when it
raises `XMLSyntaxError`). -/
structure World where
  validDateTime : Node → Bool
  parseXml : String → Option Node

/-! ## ramrod/stix/common.py and ramrod/stix/base.py -/

/-- `STIX_VERSIONS` (ramrod/stix/common.py:4). -/
def stixVersions : List String := ["1.0", "1.0.1", "1.1", "1.1.1", "1.2", "1.2.1"]

/-- `BaseSTIXUpdater.DEFAULT_VOCAB_NAMESPACE` (ramrod/stix/base.py:19). -/
def stixVocabNs : String := "http://stix.mitre.org/default_vocabularies-1"

/-- `//p:n[@version]` -/
def absV (p n : String) : XAlt := ⟨true, none, ⟨p, n⟩, .hasAttr "version"⟩

/-- `XPATH_VERSIONED_NODES` (ramrod/stix/base.py:21-44). -/
def xpathStixVersioned : List XAlt :=
  [ absX "stix" "STIX_Package",
    absV "indicator" "Indicator", absV "stix" "Indicator", absV "stixCommon" "Indicator",
    absV "incident" "Incident", absV "stix" "Incident", absV "stixCommon" "Incident",
    absV "ttp" "TTP", absV "stix" "TTP", absV "stixCommon" "TTP",
    absV "coa" "Course_Of_Action", absV "stix" "Course_Of_Action", absV "stixCommon" "Course_Of_Action",
    absV "ta" "Threat_Actor", absV "stix" "Threat_Actor", absV "stixCommon" "Threat_Actor",
    absV "campaign" "Campaign", absV "stix" "Campaign", absV "stixCommon" "Campaign",
    absV "et" "Exploit_Target", absV "stix" "Exploit_Target", absV "stixCommon" "Exploit_Target" ]

/-- `XPATH_ROOT_NODES` (ramrod/stix/base.py:46). -/
def xpathStixRoots : List XAlt := [absX "stix" "STIX_Package"]

/-- The attribute `version`. -/
def attrVersion : QName := .plain "version"

/-- `BaseSTIXUpdater.get_version` (ramrod/stix/base.py:76-82). -/
def stixGetVersion (e : Elem) : Option String := e.get? attrVersion

/-- `BaseSTIXUpdater._check_version` (ramrod/stix/base.py:84-118): the loop returns or raises at its first
iteration, so only the first package is looked at. -/
def stixCheckVersion (u : Cls) (t : Node) : Except Err Unit :=
  match u.rootNodes t with
  | [] => .ok ()
  | c :: _ =>
    match stixGetVersion c.e with
    | none => .error .unknownVersion
    | some found =>
      if found = "" then .error .unknownVersion
      else
        match isVersionEqual found u.version with
        | .error x => .error x
        | .ok true => .ok ()
        | .ok false => .error (.invalidVersion (some c) (some u.version) (some found))

/-- The `NSMAP` given to the embedded CybOX updater (ramrod/stix/base.py:67-72): the CybOX entries win. -/
def joinNsmap (stix cybox : List (String × String)) : List (String × String) := dictUpdate stix cybox

/-- Body of the `_update_versions` loops (ramrod/stix/stix_1_0.py:283-289 and the three others): the
local name decides between the indicator version and the common one. -/
def setStixVersion (indicator other : String) (e : Elem) : Elem :=
  e.set attrVersion (if e.tag.name = "Indicator" then indicator else other)

/-- `_update_versions` (ramrod/stix/stix_1_0.py:277-289, stix_1_0_1.py:450-462, stix_1_1.py:331-343,
stix_1_1_1.py:121-133). -/
def stixUpdateVersions (u : Cls) (indicator other : String) (t : Node) : Node :=
  t.modifyAll ((u.versionedNodes t).map (·.pos)) (setStixVersion indicator other)

/-! ## Finders shared by stix_1_0.py and stix_1_0_1.py -/

/-- `DisallowedMAEC` / `DisallowedCAPEC` (ramrod/stix/stix_1_0.py:35-38, 72-75;
ramrod/stix/stix_1_0_1.py:45-48, 83-86). -/
def disallowedType (nsmap : List (String × String)) (ty ns : String) : Finder :=
  ⟨[(ty, ns)], .self, nsmap, keepAll⟩

/-- `_check_maec` / `_check_capec` (ramrod/stix/stix_1_0.py:55-65, 92-103; stix_1_0_1.py:65-76, 102-113):
every child element has an `xsi:type` whose prefix resolves to `ns`.  A `KeyError` gives `False`, and
`all` stops at the first mismatch, so the order of the children does not matter. -/
def allChildrenIn (ns : String) (c : Ctx) : Bool :=
  (childCtxs c 0 c.kids).all (fun k => match getExtNamespace k with | .ok n => n == ns | .error _ => false)

/-- `DisallowedMalware` / `DisallowedAttackPatterns` (ramrod/stix/stix_1_0.py:41-69, 78-107;
stix_1_0_1.py:51-80, 89-117). -/
def disallowedParent (nsmap : List (String × String)) (local_ ns : String) : Finder :=
  ⟨[], .union [rel "ttp" local_], nsmap, fun _ cs => cs.filter (allChildrenIn ns)⟩

/-! ## ramrod/stix/stix_1_0.py -/

/-- `MotivationVocab` (ramrod/stix/stix_1_0.py:14-21). -/
def motivationVocab10 : Vocab where
  ns := stixVocabNs
  oldTypes := ["MotivationVocab-1.0"]
  newType := "MotivationVocab-1.0.1"
  reference := some "http://stix.mitre.org/XMLSchema/default_vocabularies/1.0.1/stix_default_vocabularies.xsd#MotivationVocab-1.0.1"
  name := "STIX Default Motivation Vocabulary"
  terms := [("Ideological - Anti-Establisment", "Ideological - Anti-Establishment")]

/-- `PlanningAndOperationalSupportVocab` (ramrod/stix/stix_1_0.py:24-32); line 27 ends in a comma, so the
reference is a tuple. -/
def planningVocab : Vocab where
  ns := stixVocabNs
  oldTypes := ["PlanningAndOperationalSupportVocab-1.0"]
  newType := "PlanningAndOperationalSupportVocab-1.0.1"
  reference := none
  name := "STIX Default Planning and Operational Support Vocabulary"
  terms := [("Planning - Open-Source Intelligence (OSINT) Gethering",
      "Planning - Open-Source Intelligence (OSINT) Gathering"), ("Planning ", "Planning")]

/-- The MAEC 4.0 extension namespace (ramrod/stix/stix_1_0.py:37, 52; stix_1_0_1.py:47, 62). -/
def nsMAEC : String := "http://stix.mitre.org/extensions/Malware#MAEC4.0-1"
/-- The CAPEC 2.5 extension namespace (ramrod/stix/stix_1_0.py:74, 89). -/
def nsCAPEC25 : String := "http://stix.mitre.org/extensions/AP#CAPEC2.5-1"
/-- The CAPEC 2.6 extension namespace (ramrod/stix/stix_1_0_1.py:85, 100). -/
def nsCAPEC26 : String := "http://stix.mitre.org/extensions/AP#CAPEC2.6-1"

/-- `DISALLOWED` (ramrod/stix/stix_1_0.py:164-169). -/
def stix10Disallowed : List Finder :=
  [ disallowedType Tables.stix10_nsmap "CAPEC2.5InstanceType" nsCAPEC25,
    disallowedType Tables.stix10_nsmap "MAEC4.0InstanceType" nsMAEC,
    disallowedParent Tables.stix10_nsmap "Malware" nsMAEC,
    disallowedParent Tables.stix10_nsmap "Attack_Patterns" nsCAPEC25 ]

/-- Class tables of `STIX_1_0_Updater` (ramrod/stix/stix_1_0.py:130-204). -/
def stix10Cls : Cls where
  version := Tables.stix10_version
  nsmap := Tables.stix10_nsmap
  disallowedNs := Tables.stix10_disallowedNs
  updateNsMap := []
  schemalocMap := Tables.stix10_schemalocMap
  vocabs := [motivationVocab10, planningVocab]
  xpathVersioned := xpathStixVersioned
  xpathRoots := xpathStixRoots
  disallowed := stix10Disallowed
  optionals := []
  translatable := []

/-- Selectors of the embedded CybOX 2.0 updater (ramrod/stix/stix_1_0.py:213-217). -/
def stix10Selectors : List XAlt :=
  [absX "stix" "Observables", absX "incident" "Structured_Description",
    absX "ttp" "Observable_Characterization"]

/-- The embedded CybOX updater (ramrod/stix/stix_1_0.py:204, 210-221). -/
def stix10Cybox : Cls := cybox20Cls (joinNsmap Tables.stix10_nsmap Tables.cybox20_nsmap) stix10Selectors

/-- `STIX_1_0_Updater._get_disallowed` (ramrod/stix/stix_1_0.py:233-257); the CybOX part is `None`. -/
def stix10GetDisallowed (t : Node) : Except Err (List Ctx) := findAll stix10Cls.disallowed t

/-- `STIX_1_0_Updater.check_update` (ramrod/stix/stix_1_0.py:302-336). -/
def stix10Check (o : Options) (t : Node) : Except Err Unit :=
  match (if o.checkVersions then
      match stixCheckVersion stix10Cls t with
      | .error x => .error x
      | .ok () => cyboxCheckVersion stix10Cybox t
    else .ok () : Except Err Unit) with
  | .error x => .error x
  | .ok () =>
    match stix10GetDisallowed t with
    | .error x => .error x
    | .ok dis => if dis.isEmpty then .ok () else .error (.update (some dis) none)

/-- `STIX_1_0_Updater._update` (ramrod/stix/stix_1_0.py:338-348). -/
def stix10Update (o : Options) (t : Node) : Except Err Node :=
  match cybox20Update stix10Cybox o t with
  | .error x => .error x
  | .ok t =>
    let t := stix10Cls.updateNamespaces [] t
    let t := stix10Cls.updateSchemalocs t
    let t := stixUpdateVersions stix10Cls "2.0.1" "1.0.1" t
    if o.updateVocabularies then updateVocabs stix10Cls.vocabs t else .ok t

/-- `STIX_1_0_Updater` (ramrod/stix/stix_1_0.py:110-348); `_get_duplicates` (223-231) returns `None`. -/
def stix10 : Updater where
  cls := stix10Cls
  check := stix10Check
  disallowed := fun t => (stix10GetDisallowed t).map some
  duplicates := fun _ => none
  update := stix10Update

/-! ## ramrod/stix/stix_1_0_1.py -/

/-- `MotivationVocab` (ramrod/stix/stix_1_0_1.py:18-28). -/
def motivationVocab101 : Vocab where
  ns := stixVocabNs
  oldTypes := ["MotivationVocab-1.0", "MotivationVocab-1.0.1"]
  newType := "MotivationVocab-1.1"
  reference := some "http://stix.mitre.org/XMLSchema/default_vocabularies/1.1.0/stix_default_vocabularies.xsd#MotivationVocab-1.1"
  name := "STIX Default Motivation Vocabulary"
  terms := [("Policital", "Political")]

/-- `IndicatorTypeVocab` (ramrod/stix/stix_1_0_1.py:31-35). -/
def indicatorTypeVocab : Vocab where
  ns := stixVocabNs
  oldTypes := ["IndicatorTypeVocab-1.0"]
  newType := "IndicatorTypeVocab-1.1"
  reference := some "http://stix.mitre.org/XMLSchema/default_vocabularies/1.1.0/stix_default_vocabularies.xsd#IndicatorTypeVocab-1.1"
  name := "STIX Default Indicator Type Vocabulary"
  terms := []

/-- `OptionalDataMarkingFields` (ramrod/stix/stix_1_0_1.py:38-42). -/
def optionalDataMarking : Finder :=
  ⟨[], .union [rel "marking" "Controlled_Structure", rel "marking" "Marking_Structure"],
    Tables.stix101_nsmap, keepEmpty⟩

/-- `DisallowedDateTime._validate` (ramrod/stix/stix_1_0_1.py:135-140). -/
def dateTimeOk (w : World) (c : Ctx) : Bool := !falsy c.e.text && w.validDateTime c.node

/-- `DisallowedDateTime` (ramrod/stix/stix_1_0_1.py:120-154): the parents of the invalid dates. -/
def disallowedDateTime (w : World) : Finder :=
  ⟨[], .union [relIn "campaign" "Activity" "stixCommon" "Date_Time"], Tables.stix101_nsmap,
    fun t cs => (cs.filter (fun c => !dateTimeOk w c)).filterMap (fun c => t.ctxAt c.pos.tail)⟩

/-- `DISALLOWED` (ramrod/stix/stix_1_0_1.py:356-362). -/
def stix101Disallowed (w : World) : List Finder :=
  [ disallowedType Tables.stix101_nsmap "MAEC4.0InstanceType" nsMAEC,
    disallowedType Tables.stix101_nsmap "CAPEC2.6InstanceType" nsCAPEC26,
    disallowedDateTime w,
    disallowedParent Tables.stix101_nsmap "Malware" nsMAEC,
    disallowedParent Tables.stix101_nsmap "Attack_Patterns" nsCAPEC26 ]

/-- The TTP namespace (ramrod/stix/stix_1_0_1.py:185). -/
def nsTTP : String := "http://stix.mitre.org/TTP-1"
/-- The common namespace (ramrod/stix/stix_1_0_1.py:244). -/
def nsCommon : String := "http://stix.mitre.org/common-1"
/-- The indicator namespace (ramrod/stix/stix_1_1.py:177). -/
def nsIndicator : String := "http://stix.mitre.org/Indicator-2"

/-- `TransTTPExploitTargets._translate_fields` (ramrod/stix/stix_1_0_1.py:160-190): a wrapper around a deep
copy (with its tail). -/
def wrapExploitTarget (c : Ctx) : Except Err Node :=
  .ok (newElem ⟨some nsTTP, "Exploit_Target"⟩ [] none [c.node])

/-- `TransTTPExploitTargets` (ramrod/stix/stix_1_0_1.py:157-190). -/
def transExploitTargets : Trans :=
  ⟨[relIn "ttp" "Exploit_Targets" "stixCommon" "Exploit_Target"], Tables.stix101_nsmap,
    .custom wrapExploitTarget⟩

/-- One iteration of the loop over contributors (ramrod/stix/stix_1_0_1.py:250-254).  The loop visits all
child nodes; setting the tag of a comment raises `AttributeError`. -/
def translateContributor : Node → Except Err Node
  | .other _ _ => .error .attributeError
  | .elem e ks =>
    .ok (newElem ⟨some nsCommon, "Source"⟩ [] none [copyRetag ⟨some nsCommon, "Identity"⟩ e ks])

/-- `TransCommonContributors._translate_fields` (ramrod/stix/stix_1_0_1.py:196-256). -/
def translateContributors (c : Ctx) : Except Err Node :=
  match mapE translateContributor c.kids with
  | .error x => .error x
  | .ok ks => .ok (newElem ⟨some nsCommon, "Contributing_Sources"⟩ [] none ks)

/-- `TransCommonContributors` (ramrod/stix/stix_1_0_1.py:193-256). -/
def transContributors : Trans :=
  ⟨[rel "stixCommon" "Contributors"], Tables.stix101_nsmap, .custom translateContributors⟩

/-- Class tables of `STIX_1_0_1_Updater` (ramrod/stix/stix_1_0_1.py:288-371). -/
def stix101Cls (w : World) : Cls where
  version := Tables.stix101_version
  nsmap := Tables.stix101_nsmap
  disallowedNs := Tables.stix101_disallowedNs
  updateNsMap := []
  schemalocMap := Tables.stix101_schemalocMap
  vocabs := [motivationVocab101, indicatorTypeVocab]
  xpathVersioned := xpathStixVersioned
  xpathRoots := xpathStixRoots
  disallowed := stix101Disallowed w
  optionals := [optionalDataMarking]
  translatable := [transContributors, transExploitTargets]

/-- Selectors of the embedded CybOX 2.0.1 updater (ramrod/stix/stix_1_0_1.py:382-388). -/
def stix101Selectors : List XAlt :=
  [rel "stix" "Observables", rel "incident" "Structured_Description",
    rel "ttp" "Observable_Characterization", rel "ttp" "Targeted_Technical_Details",
    rel "coa" "Parameter_Observables"]

/-- The embedded CybOX updater (ramrod/stix/stix_1_0_1.py:373, 379-392). -/
def stix101Cybox : Cls := cybox201Cls (joinNsmap Tables.stix101_nsmap Tables.cybox201_nsmap) stix101Selectors

/-- `STIX_1_0_1_Updater._get_disallowed` (ramrod/stix/stix_1_0_1.py:413-436). -/
def stix101GetDisallowed (w : World) (t : Node) : Except Err (List Ctx) :=
  match findAll (stix101Disallowed w) t with
  | .error x => .error x
  | .ok a =>
    match findAll stix101Cybox.disallowed t with
    | .error x => .error x
    | .ok b => .ok (a ++ b)

/-- `STIX_1_0_1_Updater._get_duplicates` (ramrod/stix/stix_1_0_1.py:438-448). -/
def stix101GetDuplicates (t : Node) : Dups :=
  dictUpdate (getDuplicates Tables.stix101_nsmap t) (getDuplicates stix101Cybox.nsmap t)

/-- `STIX_1_0_1_Updater.check_update` (ramrod/stix/stix_1_0_1.py:512-549). -/
def stix101Check (w : World) (o : Options) (t : Node) : Except Err Unit :=
  match (if o.checkVersions then
      match stixCheckVersion (stix101Cls w) t with
      | .error x => .error x
      | .ok () => cyboxCheckVersion stix101Cybox t
    else .ok () : Except Err Unit) with
  | .error x => .error x
  | .ok () =>
    let dups := stix101GetDuplicates t
    match stix101GetDisallowed w t with
    | .error x => .error x
    | .ok dis => if dis.isEmpty && dups.isEmpty then .ok () else .error (.update (some dis) (some dups))

/-- `STIX_1_0_1_Updater._update` (ramrod/stix/stix_1_0_1.py:551-565). -/
def stix101Update (w : World) (o : Options) (t : Node) : Except Err Node :=
  match cybox201Update stix101Cybox o t with
  | .error x => .error x
  | .ok t =>
    let t := (stix101Cls w).updateNamespaces [] t
    let t := (stix101Cls w).updateSchemalocs t
    let t := stixUpdateVersions (stix101Cls w) "2.1" "1.1" t
    match translateFields (stix101Cls w).translatable t with
    | .error x => .error x
    | .ok t =>
      match (if o.updateVocabularies then updateVocabs (stix101Cls w).vocabs t else .ok t) with
      | .error x => .error x
      | .ok t => if o.removeOptionals then removeOptionals (stix101Cls w).optionals t else .ok t

/-- `STIX_1_0_1_Updater` (ramrod/stix/stix_1_0_1.py:259-565). -/
def stix101 (w : World) : Updater where
  cls := stix101Cls w
  check := stix101Check w
  disallowed := fun t => (stix101GetDisallowed w t).map some
  duplicates := fun t => some (stix101GetDuplicates t)
  update := stix101Update w

/-! ## ramrod/stix/stix_1_1.py -/

/-- `AvailabilityLossVocab` (ramrod/stix/stix_1_1.py:17-24). -/
def availabilityLossVocab : Vocab where
  ns := stixVocabNs
  oldTypes := ["AvailabilityLossTypeVocab-1.0"]
  newType := "AvailabilityLossTypeVocab-1.1.1"
  reference := some "http://stix.mitre.org/XMLSchema/default_vocabularies/1.1.1/stix_default_vocabularies.xsd#AvailabilityLossTypeVocab-1.1.1"
  name := "STIX Default Availability Loss Type Vocabulary"
  terms := [("Degredation", "Degradation")]

/-- Does `]]>` occur?  (XML 1.0 section 2.4 forbids it in character data.) -/
def hasCdataEnd : List Char → Bool
  | ']' :: ']' :: '>' :: _ => true
  | _ :: cs => hasCdataEnd cs
  | [] => false

/-- Text that an XML parser returns unchanged when it is put between tags: no `<`, `&`, carriage return
and no `]]>`. -/
def xmlPlain (s : String) : Bool :=
  s.toList.all (fun c => c != '<' && c != '&' && c != '\r') && !hasCdataEnd s.toList

/-- What `"…{0}…".format(node.text)` inserts: `None` for a missing text (ramrod/stix/stix_1_1.py:88, 135). -/
def formatText : Option String → String
  | none => "None"
  | some s => s

/-- The white space and tags of the template (ramrod/stix/stix_1_1.py:81-88), before and after the text. -/
def commonSourceXml (s : String) : String :=
  "\n        <stixCommon:Source xmlns:stixCommon=\"http://stix.mitre.org/common-1\">\n            <stixCommon:Identity>\n                <stixCommon:Name>" ++ s ++
  "</stixCommon:Name>\n            </stixCommon:Identity>\n        </stixCommon:Source>\n        "

/-- The white space and tags of the template (ramrod/stix/stix_1_1.py:128-135). -/
def sightingSourceXml (s : String) : String :=
  "\n        <indicator:Source xmlns:indicator=\"http://stix.mitre.org/Indicator-2\">\n            <stixCommon:Identity xmlns:stixCommon=\"http://stix.mitre.org/common-1\">\n                <stixCommon:Name>" ++ s ++
  "</stixCommon:Name>\n            </stixCommon:Identity>\n        </indicator:Source>\n        "

/-- The element `etree.fromstring` returns for the templates when the text is plain (default parser:
white space between the tags is kept). -/
def sourceNode (tag : QName) (srcDecls idDecls : NsMap) (s : String) : Node :=
  .elem ⟨tag, srcDecls, [], some "\n            ", none⟩
    [.elem ⟨⟨some nsCommon, "Identity"⟩, idDecls, [], some "\n                ", some "\n        "⟩
      [.elem ⟨⟨some nsCommon, "Name"⟩, [], [], some s, some "\n            "⟩ []]]

/-- `etree.fromstring` (ramrod/stix/stix_1_1.py:90, 137). -/
def fromstring (w : World) (xml : String) : Except Err Node :=
  match w.parseXml xml with
  | some n => .ok n
  | none => .error .xmlSyntax

/-- `TransCommonSource._translate_fields` (ramrod/stix/stix_1_1.py:51-91).  Simplification: an empty
(not missing) text stays an empty text; a parsed document has no empty texts. -/
def translateCommonSource (w : World) (c : Ctx) : Except Err Node :=
  let s := formatText c.e.text
  if xmlPlain s then .ok (sourceNode ⟨some nsCommon, "Source"⟩ [(some "stixCommon", nsCommon)] [] s)
  else fromstring w (commonSourceXml s)

/-- `TransSightingsSource._translate_fields` (ramrod/stix/stix_1_1.py:99-138). -/
def translateSightingSource (w : World) (c : Ctx) : Except Err Node :=
  let s := formatText c.e.text
  if xmlPlain s then
    .ok (sourceNode ⟨some nsIndicator, "Source"⟩ [(some "indicator", nsIndicator)]
      [(some "stixCommon", nsCommon)] s)
  else fromstring w (sightingSourceXml s)

/-- `(prefix, name)` of the parents listed in `TransCommonSource.XPATH_NODE`
(ramrod/stix/stix_1_1.py:30-48). -/
def sourceParents : List (String × String) :=
  [ ("campaign", "Confidence"), ("coa", "Applicability_Confidence"), ("incident", "Confidence"),
    ("indicator", "Confidence"), ("stixCommon", "Confidence_Assertion"), ("stixCommon", "Confidence"),
    ("ta", "Confidence"), ("campaign", "Intended_Effect"), ("coa", "Cost"), ("coa", "Efficacy"),
    ("incident", "Intended_Effect"), ("indicator", "Likely_Impact"), ("indicator", "Efficacy"),
    ("ta", "Type"), ("ta", "Motivation"), ("ta", "Sophistication"), ("ta", "Intended_Effect"),
    ("ta", "Planning_And_Operational_Support"), ("ttp", "Intended_Effect") ]

/-- `TransCommonSource` (ramrod/stix/stix_1_1.py:27-91). -/
def transCommonSource (w : World) : Trans :=
  ⟨sourceParents.map (fun p => relIn p.1 p.2 "stixCommon" "Source"), Tables.stix11_nsmap,
    .custom (translateCommonSource w)⟩

/-- `TransSightingsSource` (ramrod/stix/stix_1_1.py:94-138). -/
def transSightingsSource (w : World) : Trans :=
  ⟨[relIn "indicator" "Sighting" "indicator" "Source"], Tables.stix11_nsmap,
    .custom (translateSightingSource w)⟩

/-- `TransIndicatorRelatedCampaign._translate_fields` (ramrod/stix/stix_1_1.py:145-180). -/
def wrapRelatedCampaign (c : Ctx) : Except Err Node :=
  .ok (newElem ⟨some nsIndicator, "Related_Campaign"⟩ [] none
    [copyRetag ⟨some nsCommon, "Campaign"⟩ c.e c.kids])

/-- `TransIndicatorRelatedCampaign` (ramrod/stix/stix_1_1.py:141-180). -/
def transRelatedCampaign : Trans :=
  ⟨[relIn "indicator" "Related_Campaigns" "indicator" "Related_Campaign"], Tables.stix11_nsmap,
    .custom wrapRelatedCampaign⟩

/-- The Generic test mechanism namespace (ramrod/stix/stix_1_1.py:186). -/
def nsGenericTM : String := "http://stix.mitre.org/extensions/TestMechanism#Generic-1"

/-- `OptionalGenericTestMechanismFields` (ramrod/stix/stix_1_1.py:183-187). -/
def optionalGenericTM : Finder :=
  ⟨[("GenericTestMechanismType", nsGenericTM)], .children, Tables.stix11_nsmap, keepEmpty⟩

/-- Class tables of `STIX_1_1_Updater` (ramrod/stix/stix_1_1.py:215-285). -/
def stix11Cls (w : World) : Cls where
  version := Tables.stix11_version
  nsmap := Tables.stix11_nsmap
  disallowedNs := []
  updateNsMap := []
  schemalocMap := Tables.stix11_schemalocMap
  vocabs := [availabilityLossVocab]
  xpathVersioned := xpathStixVersioned
  xpathRoots := xpathStixRoots
  disallowed := []
  optionals := [optionalGenericTM]
  translatable := [transCommonSource w, transSightingsSource w, transRelatedCampaign]

/-- The embedded CybOX 2.0.1 updater, of which only `_update_schemalocs` is used
(ramrod/stix/stix_1_1.py:287, 345-358). -/
def stix11Cybox : Cls := cybox201Cls (joinNsmap Tables.stix11_nsmap Tables.cybox201_nsmap) xpathObservables

/-- `STIX_1_1_Updater.check_update` (ramrod/stix/stix_1_1.py:360-395); `_get_disallowed` returns `None`. -/
def stix11Check (w : World) (o : Options) (t : Node) : Except Err Unit :=
  if o.checkVersions then stixCheckVersion (stix11Cls w) t else .ok ()

/-- `STIX_1_1_Updater._update` (ramrod/stix/stix_1_1.py:397-409). -/
def stix11Update (w : World) (o : Options) (t : Node) : Except Err Node :=
  let t := stix11Cybox.updateSchemalocs t
  let t := (stix11Cls w).updateSchemalocs t
  let t := stixUpdateVersions (stix11Cls w) "2.1.1" "1.1.1" t
  match translateFields (stix11Cls w).translatable t with
  | .error x => .error x
  | .ok t =>
    match (if o.updateVocabularies then updateVocabs (stix11Cls w).vocabs t else .ok t) with
    | .error x => .error x
    | .ok t => if o.removeOptionals then removeOptionals (stix11Cls w).optionals t else .ok t

/-- `STIX_1_1_Updater` (ramrod/stix/stix_1_1.py:190-409). -/
def stix11 (w : World) : Updater where
  cls := stix11Cls w
  check := stix11Check w
  disallowed := fun _ => .ok none
  duplicates := fun _ => none
  update := stix11Update w

/-! ## ramrod/stix/stix_1_1_1.py -/

/-- `DiscoveryMethodVocab` (ramrod/stix/stix_1_1_1.py:13-20). -/
def discoveryMethodVocab : Vocab where
  ns := stixVocabNs
  oldTypes := ["DiscoveryMethodVocab-1.0"]
  newType := "DiscoveryMethodVocab-2.0"
  reference := some "http://stix.mitre.org/XMLSchema/default_vocabularies/1.2.0/stix_default_vocabularies.xsd#DiscoveryMethodTypeVocab-2.0"
  name := "STIX Default Discovery Method Vocabulary"
  terms := [("Fraud Detection", "External - Fraud Detection")]

/-- Class tables of `STIX_1_1_1_Updater` (ramrod/stix/stix_1_1_1.py:35-95). -/
def stix111Cls : Cls where
  version := Tables.stix111_version
  nsmap := Tables.stix111_nsmap
  disallowedNs := []
  updateNsMap := []
  schemalocMap := Tables.stix111_schemalocMap
  vocabs := [discoveryMethodVocab]
  xpathVersioned := xpathStixVersioned
  xpathRoots := xpathStixRoots
  disallowed := []
  optionals := []
  translatable := []

/-- `STIX_1_1_1_Updater.check_update` (ramrod/stix/stix_1_1_1.py:135-156). -/
def stix111Check (o : Options) (t : Node) : Except Err Unit :=
  if o.checkVersions then stixCheckVersion stix111Cls t else .ok ()

/-- `STIX_1_1_1_Updater._update` (ramrod/stix/stix_1_1_1.py:158-165). -/
def stix111Update (o : Options) (t : Node) : Except Err Node :=
  let t := stix111Cls.updateSchemalocs t
  let t := stixUpdateVersions stix111Cls "2.2" "1.2" t
  if o.updateVocabularies then updateVocabs stix111Cls.vocabs t else .ok t

/-- `STIX_1_1_1_Updater` (ramrod/stix/stix_1_1_1.py:23-165); `_get_disallowed` and `_get_duplicates`
return `None`. -/
def stix111 : Updater where
  cls := stix111Cls
  check := stix111Check
  disallowed := fun _ => .ok none
  duplicates := fun _ => none
  update := stix111Update

/-! ## ramrod/stix/stix_1_2.py -/

/-- Class tables of `STIX_1_2_Updater` (ramrod/stix/stix_1_2.py:12-50). -/
def stix12Cls : Cls where
  version := Tables.stix12_version
  nsmap := Tables.stix12_nsmap
  disallowedNs := []
  updateNsMap := Tables.stix12_updateNsMap
  schemalocMap := []
  vocabs := []
  xpathVersioned := xpathStixVersioned
  xpathRoots := xpathStixRoots
  disallowed := []
  optionals := []
  translatable := []

/-- `STIX_1_2_Updater.check_update` (ramrod/stix/stix_1_2.py:52-73). -/
def stix12Check (o : Options) (t : Node) : Except Err Unit :=
  if o.checkVersions then stixCheckVersion stix12Cls t else .ok ()

/-- `root.set("version", …)` (ramrod/stix/stix_1_2.py:79). -/
def setRootVersion (v : String) : Node → Node
  | .elem e ks => .elem (e.set attrVersion v) ks
  | .other c t => .other c t

/-- `STIX_1_2_Updater._update` (ramrod/stix/stix_1_2.py:75-81). -/
def stix12Update (_ : Options) (t : Node) : Except Err Node :=
  let t := stix12Cls.updateNamespaces [] t
  let t := stix12Cls.updateSchemalocs t
  .ok (setRootVersion "1.2.1" t)

/-- `STIX_1_2_Updater` (ramrod/stix/stix_1_2.py:7-81).  `_get_disallowed` is not overridden and raises
`NotImplementedError` (ramrod/base.py:809-810); `_get_duplicates` is the inherited one. -/
def stix12 : Updater where
  cls := stix12Cls
  check := stix12Check
  disallowed := fun _ => .error .notImplemented
  duplicates := fun t => some (getDuplicates Tables.stix12_nsmap t)
  update := stix12Update

/-- `STIX_UPDATERS` after registration (ramrod/stix/__init__.py:85, 99-122). -/
def stixUpdaters (w : World) : List (String × Updater) :=
  [("1.0", stix10), ("1.0.1", stix101 w), ("1.1", stix11 w), ("1.1.1", stix111), ("1.2", stix12)]

end Ramrod

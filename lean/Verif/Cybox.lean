import Verif.Base
import Verif.Tables
/-!
# ramrod/cybox/*.py
-/

namespace Ramrod

/-- `.//p:n` -/
def rel (p n : String) : XAlt := ⟨false, none, ⟨p, n⟩, .none⟩
/-- `.//p:n/q:m` -/
def relIn (p n q m : String) : XAlt := ⟨false, some ⟨p, n⟩, ⟨q, m⟩, .none⟩
/-- `//p:n` -/
def absX (p n : String) : XAlt := ⟨true, none, ⟨p, n⟩, .none⟩

/-! ## ramrod/cybox/common.py and ramrod/cybox/base.py -/

/-- `CYBOX_VERSIONS` (ramrod/cybox/common.py:4). -/
def cyboxVersions : List String := ["2.0", "2.0.1", "2.1"]
/-- `TAG_CYBOX_MAJOR` (ramrod/cybox/common.py:5). -/
def attrMajor : QName := .plain "cybox_major_version"
/-- `TAG_CYBOX_MINOR` (ramrod/cybox/common.py:6). -/
def attrMinor : QName := .plain "cybox_minor_version"
/-- `TAG_CYBOX_UPDATE` (ramrod/cybox/common.py:7). -/
def attrUpdate : QName := .plain "cybox_update_version"

/-- `BaseCyboxUpdater.DEFAULT_VOCAB_NAMESPACE` (ramrod/cybox/base.py:16). -/
def cyboxVocabNs : String := "http://cybox.mitre.org/default_vocabularies-2"

/-- `XPATH_VERSIONED_NODES` and `XPATH_ROOT_NODES` (ramrod/cybox/base.py:17-18). -/
def xpathObservables : List XAlt := [absX "cybox" "Observables"]
/-- `XPATH_OBJECT_PROPS` (ramrod/cybox/base.py:19). -/
def xpathObjectProps : List XAlt := [⟨true, some ⟨"cybox", "Object"⟩, ⟨"cybox", "Properties"⟩, .none⟩]

/-- Python truth of a possibly missing string: `not (x)`. -/
def falsy : Option String → Bool
  | none => true
  | some s => s == ""

/-- `BaseCyboxUpdater.get_version` (ramrod/cybox/base.py:24-53). -/
def cyboxGetVersion (e : Elem) : Except Err String :=
  let major := e.get? attrMajor
  let minor := e.get? attrMinor
  let upd := e.get? attrUpdate
  if falsy major || falsy minor then .error .unknownVersion
  else if falsy upd then .ok (major.getD "" ++ "." ++ minor.getD "")
  else .ok (major.getD "" ++ "." ++ minor.getD "" ++ "." ++ upd.getD "")

/-- Loop of `BaseCyboxUpdater._check_version` (ramrod/cybox/base.py:76-90). -/
def cyboxCheckRoots (expected : String) : List Ctx → Except Err Unit
  | [] => .ok ()
  | c :: cs =>
    match cyboxGetVersion c.e with
    | .error x => .error x
    | .ok found =>
      match isVersionEqual expected found with
      | .error x => .error x
      | .ok true => cyboxCheckRoots expected cs
      | .ok false => .error (.invalidVersion (some c) (some expected) (some found))

/-- `BaseCyboxUpdater._check_version` (ramrod/cybox/base.py:55-90): every root node is checked. -/
def cyboxCheckVersion (u : Cls) (t : Node) : Except Err Unit := cyboxCheckRoots u.version (u.rootNodes t)

/-! ## ramrod/cybox/cybox_2_0.py -/

/-- `EventTypeVocab` (ramrod/cybox/cybox_2_0.py:14-21). -/
def eventTypeVocab : Vocab where
  ns := cyboxVocabNs
  oldTypes := ["EventTypeVocab-1.0"]
  newType := "EventTypeVocab-1.0.1"
  reference := some "http://cybox.mitre.org/XMLSchema/default_vocabularies/2.0.1/cybox_default_vocabularies.xsd#EventTypeVocab-1.0.1"
  name := "CybOX Default Event Types"
  terms := [("Anomoly Events", "Anomaly Events")]

/-- Class tables of `Cybox_2_0_Updater` (ramrod/cybox/cybox_2_0.py:36-211).  `nsmap` and `sel` are the
class's own for a stand-alone document, and the ones installed by the STIX updaters otherwise
(ramrod/stix/base.py:65-72, ramrod/stix/stix_1_0.py:213-221). -/
def cybox20Cls (nsmap : List (String × String)) (sel : List XAlt) : Cls where
  version := Tables.cybox20_version
  nsmap := nsmap
  disallowedNs := []
  updateNsMap := []
  schemalocMap := Tables.cybox20_schemalocMap
  vocabs := [eventTypeVocab]
  xpathVersioned := sel
  xpathRoots := sel
  disallowed := []
  optionals := []
  translatable := []

/-- `Cybox_2_0_Updater._update_versions` (ramrod/cybox/cybox_2_0.py:216-227), on one node. -/
def setVersion201 (e : Elem) : Elem := ((e.set attrMajor "2").set attrMinor "0").set attrUpdate "1"

/-- `Cybox_2_0_Updater._update_versions` (ramrod/cybox/cybox_2_0.py:216-227). -/
def cybox20UpdateVersions (u : Cls) (t : Node) : Node :=
  t.modifyAll ((u.versionedNodes t).map (·.pos)) setVersion201

/-- Text change of `_update_lists` (ramrod/cybox/cybox_2_0.py:251-253). -/
def updateListText (s : String) : String := pyReplace "&comma;" "," (pyReplace "," "##comma##" s)

/-- Body of the inner loop of `_update_lists` (ramrod/cybox/cybox_2_0.py:248-254). -/
def updateListElem (e : Elem) : Elem :=
  match e.text with
  | none => e
  | some s => if s = "" then e else { e with text := some (updateListText s) }

/-- `prop.findall('.//*')` as positions (ramrod/cybox/cybox_2_0.py:247): all elements strictly below. -/
def descPositions (c : Ctx) : List Pos := (Node.walks c.pos 0 [] [] c.kids).map (·.pos)

/-- `Cybox_2_0_Updater._update_lists` (ramrod/cybox/cybox_2_0.py:229-254). -/
def updateLists (u : Cls) (t : Node) : Node :=
  (t.xpath u.nsmap xpathObjectProps).foldl (fun t c => t.modifyAll (descPositions c) updateListElem) t

/-- `Cybox_2_0_Updater.check_update` (ramrod/cybox/cybox_2_0.py:274-297). -/
def cybox20Check (u : Cls) (o : Options) (t : Node) : Except Err Unit :=
  if o.checkVersions then cyboxCheckVersion u t else .ok ()

/-- `Cybox_2_0_Updater._update` (ramrod/cybox/cybox_2_0.py:299-307). -/
def cybox20Update (u : Cls) (o : Options) (t : Node) : Except Err Node :=
  let t := u.updateSchemalocs t
  let t := cybox20UpdateVersions u t
  let t := updateLists u t
  if o.updateVocabularies then updateVocabs u.vocabs t else .ok t

/-- `Cybox_2_0_Updater` (ramrod/cybox/cybox_2_0.py:24-307); `_get_disallowed` (256-261) and
`_get_duplicates` (263-272) return `None`. -/
def cybox20 : Updater :=
  let u := cybox20Cls Tables.cybox20_nsmap xpathObservables
  { cls := u
    check := cybox20Check u
    disallowed := fun _ => .ok none
    duplicates := fun _ => none
    update := cybox20Update u }

/-! ## ramrod/cybox/cybox_2_0_1.py -/

/-- `ObjectRelationshipVocab` (ramrod/cybox/cybox_2_0_1.py:16-20); line 19 ends in a comma, so the
reference is a tuple. -/
def objectRelationshipVocab : Vocab where
  ns := cyboxVocabNs
  oldTypes := ["ObjectRelationshipVocab-1.0"]
  newType := "ObjectRelationshipVocab-1.1"
  reference := none
  name := "CybOX Default Object-Object Relationships"
  terms := []

/-- `ToolTypeVocab` (ramrod/cybox/cybox_2_0_1.py:23-30). -/
def toolTypeVocab : Vocab where
  ns := cyboxVocabNs
  oldTypes := ["ToolTypeVocab-1.0"]
  newType := "ToolTypeVocab-1.1"
  reference := some "http://cybox.mitre.org/XMLSchema/default_vocabularies/2.1/cybox_default_vocabularies.xsd#ToolTypeVocab-1.1"
  name := "CybOX Default Tool Types"
  terms := [("A/V", "AV")]

/-- `ActionNameVocab` (ramrod/cybox/cybox_2_0_1.py:33-37). -/
def actionNameVocab : Vocab where
  ns := cyboxVocabNs
  oldTypes := ["ActionNameVocab-1.0"]
  newType := "ActionNameVocab-1.1"
  reference := some "http://cybox.mitre.org/XMLSchema/default_vocabularies/2.1/cybox_default_vocabularies.xsd#DefinedActionNameVocab-1.1"
  name := "CybOX Default Action Names"
  terms := []

/-- A finder over the whole document with class-level `NSMAP` of the 2.0.1 updater, wired by
`_wire_nsmaps` (ramrod/cybox/__init__.py:81-91). -/
def cybox201Finder (alts : List XAlt) (interrogate : Node → List Ctx → List Ctx) : Finder :=
  ⟨[], .union alts, Tables.cybox201_nsmap, interrogate⟩

/-- `DisallowedTaskTriggerType` (ramrod/cybox/cybox_2_0_1.py:40-41). -/
def disallowedTaskTriggerType : Finder := cybox201Finder [rel "WinTaskObj" "Trigger_Type"] keepAll

/-- `DisallowedWindowsMailslotHandle` (ramrod/cybox/cybox_2_0_1.py:44-70); `len(node) > 1` counts all child
nodes. -/
def disallowedMailslotHandle : Finder :=
  cybox201Finder [⟨false, none, ⟨"WinMailslotObj", "Handle"⟩, .hasChild ⟨"WinHandleObj", "Handle"⟩⟩]
    (fun _ cs => cs.filter (fun c => decide (c.kids.length > 1)))

/-- `DisallowedWinExecutableFile` (ramrod/cybox/cybox_2_0_1.py:73-83). -/
def disallowedWinExecutableFile : Finder :=
  cybox201Finder [relIn "WinExecutableFileObj" "Section" "WinExecutableFileObj" "Type"] keepAll

/-- `DisallowedHTTPSession` (ramrod/cybox/cybox_2_0_1.py:86-87). -/
def disallowedHTTPSession : Finder := cybox201Finder [rel "HTTPSessionObj" "X_Forwarded_Proto"] keepAll

/-- `DISALLOWED` (ramrod/cybox/cybox_2_0_1.py:374-379). -/
def cybox201Disallowed : List Finder :=
  [disallowedHTTPSession, disallowedTaskTriggerType, disallowedWinExecutableFile, disallowedMailslotHandle]

/-- `OPTIONAL_ELEMENTS` (ramrod/cybox/cybox_2_0_1.py:381-396) with the classes of lines 90-167. -/
def cybox201Optionals : List Finder :=
  [ cybox201Finder [rel "URIObj" "Value"] keepEmpty,
    cybox201Finder [rel "DiskPartitionObj" "Partition_ID"] keepEmpty,
    cybox201Finder [rel "DNSCacheObj" "DNS_Entry"] keepEmpty,
    cybox201Finder [rel "DNSQueryObj" "QName"] keepEmpty,
    cybox201Finder [rel "FileObj" "Depth"] keepEmpty,
    cybox201Finder [rel "HTTPSessionObj" "Message_Body", rel "HTTPSessionObj" "Domain_Name"] keepEmpty,
    cybox201Finder [rel "LinuxPackageObj" "Name"] keepEmpty,
    cybox201Finder (Tables.packetElements.map (rel "PacketObj")) keepEmpty,
    cybox201Finder [rel "ProductObj" "Product", rel "ProductObj" "Vendor"] keepEmpty,
    cybox201Finder [rel "SystemObj" "IP_Address"] keepEmpty,
    cybox201Finder [rel "WinComputerAccountObj" "Delegation", rel "WinComputerAccountObj" "Bitmask",
      rel "WinComputerAccountObj" "Service"] keepEmpty,
    cybox201Finder [rel "WinFileObj" "Size_In_Bytes"] keepEmpty,
    cybox201Finder [rel "WinNetworkShareObj" "Netname"] keepEmpty,
    cybox201Finder [rel "WinPrefetchObj" "VolumeItem", rel "WinPrefetchObj" "DeviceItem"] keepEmpty ]

/-- Namespace in `NEW_TAG` of the HTTP session fields (ramrod/cybox/cybox_2_0_1.py:184). -/
def nsHTTPSession : String := "http://cybox.mitre.org/objects#HTTPSessionObject-2"
/-- Namespace in `NEW_TAG` of the packet fields (ramrod/cybox/cybox_2_0_1.py:196, 201, 206). -/
def nsPacket : String := "http://cybox.mitre.org/objects#PacketObject-2"
/-- Namespace in `NEW_TAG` of the mailslot handle (ramrod/cybox/cybox_2_0_1.py:211). -/
def nsWinMailslot : String := "http://cybox.mitre.org/objects#WinMailslotObject-2"

/-- `TransHTTPSessionDNT` (ramrod/cybox/cybox_2_0_1.py:170-173). -/
def transDNT : Trans :=
  ⟨[rel "HTTPSessionObj" "DNT"], Tables.cybox201_nsmap, .value (some ⟨"URIObj", "Value"⟩) none true []⟩
/-- `TransHTTPSessionVary` (ramrod/cybox/cybox_2_0_1.py:176-179). -/
def transVary : Trans :=
  ⟨[rel "HTTPSessionObj" "Vary"], Tables.cybox201_nsmap, .value (some ⟨"URIObj", "Value"⟩) none true []⟩
/-- `TransHTTPSessionXRequestedFor` (ramrod/cybox/cybox_2_0_1.py:182-184). -/
def transXRequestedFor : Trans :=
  ⟨[rel "HTTPSessionObj" "X_Requested_For"], Tables.cybox201_nsmap,
    .renamed ⟨some nsHTTPSession, "X_Forwarded_For"⟩⟩
/-- `TransHTTPSessionRefresh` (ramrod/cybox/cybox_2_0_1.py:187-192). -/
def transRefresh : Trans :=
  ⟨[rel "HTTPSessionObj" "Refresh"], Tables.cybox201_nsmap,
    .value none none true [(.plain "datatype", "string")]⟩
/-- `TransNetPacketProtoAddrSize` (ramrod/cybox/cybox_2_0_1.py:194-196). -/
def transProtoAddrSize : Trans :=
  ⟨[rel "PacketObj" "Protol_Addr_Size"], Tables.cybox201_nsmap, .renamed ⟨some nsPacket, "Proto_Addr_Size"⟩⟩
/-- `TransNetPacketEncapsulatingSecurityPayload` (ramrod/cybox/cybox_2_0_1.py:199-201). -/
def transEncapsulating : Trans :=
  ⟨[rel "PacketObj" "Excapsulating_Security_Payload"], Tables.cybox201_nsmap,
    .renamed ⟨some nsPacket, "Encapsulating_Security_Payload"⟩⟩
/-- `TransNetPacketAuthenticationData` (ramrod/cybox/cybox_2_0_1.py:204-206). -/
def transAuthData : Trans :=
  ⟨[rel "PacketObj" "Authenication_Data"], Tables.cybox201_nsmap,
    .renamed ⟨some nsPacket, "Authentication_Data"⟩⟩
/-- `TransWinMailslotHandle` (ramrod/cybox/cybox_2_0_1.py:209-223): the parent is replaced by a retagged
copy of the inner handle. -/
def transMailslot : Trans :=
  ⟨[relIn "WinMailslotObj" "Handle" "WinHandleObj" "Handle"], Tables.cybox201_nsmap,
    .parent (fun c => .ok (copyRetag ⟨some nsWinMailslot, "Handle"⟩ c.e c.kids))⟩

/-- `TRANSLATABLE_FIELDS` (ramrod/cybox/cybox_2_0_1.py:398-407). -/
def cybox201Translatable : List Trans :=
  [transDNT, transVary, transRefresh, transXRequestedFor, transAuthData, transEncapsulating,
    transProtoAddrSize, transMailslot]

/-- Class tables of `Cybox_2_0_1_Updater` (ramrod/cybox/cybox_2_0_1.py:287-514); `nsmap` and `sel` as for
`cybox20Cls`. -/
def cybox201Cls (nsmap : List (String × String)) (sel : List XAlt) : Cls where
  version := Tables.cybox201_version
  nsmap := nsmap
  disallowedNs := []
  updateNsMap := Tables.cybox201_updateNsMap
  schemalocMap := Tables.cybox201_schemalocMap
  vocabs := [objectRelationshipVocab, toolTypeVocab, actionNameVocab]
  xpathVersioned := sel
  xpathRoots := sel
  disallowed := cybox201Disallowed
  optionals := cybox201Optionals
  translatable := cybox201Translatable

/-- `Cybox_2_0_1_Updater._update_versions` (ramrod/cybox/cybox_2_0_1.py:519-532), on one node. -/
def setVersion21 (e : Elem) : Elem := ((e.set attrMajor "2").set attrMinor "1").del attrUpdate

/-- `Cybox_2_0_1_Updater._update_versions` (ramrod/cybox/cybox_2_0_1.py:519-532). -/
def cybox201UpdateVersions (u : Cls) (t : Node) : Node :=
  t.modifyAll ((u.versionedNodes t).map (·.pos)) setVersion21

/-- `for klass in DISALLOWED: disallowed.extend(klass.find(root))`
(ramrod/cybox/cybox_2_0_1.py:574-580, ramrod/stix/stix_1_0.py:246-250, ramrod/stix/stix_1_0_1.py:426-430). -/
def findAll : List Finder → Node → Except Err (List Ctx)
  | [], _ => .ok []
  | f :: fs, t =>
    match f.find t with
    | .error x => .error x
    | .ok a =>
      match findAll fs t with
      | .error x => .error x
      | .ok b => .ok (a ++ b)

/-- `Cybox_2_0_1_Updater.check_update` (ramrod/cybox/cybox_2_0_1.py:617-653). -/
def cybox201Check (u : Cls) (o : Options) (t : Node) : Except Err Unit :=
  match (if o.checkVersions then cyboxCheckVersion u t else .ok ()) with
  | .error x => .error x
  | .ok () =>
    let dups := getDuplicates u.nsmap t
    match findAll u.disallowed t with
    | .error x => .error x
    | .ok dis => if dis.isEmpty && dups.isEmpty then .ok () else .error (.update (some dis) (some dups))

/-- `Cybox_2_0_1_Updater._update` (ramrod/cybox/cybox_2_0_1.py:655-668). -/
def cybox201Update (u : Cls) (o : Options) (t : Node) : Except Err Node :=
  let t := u.updateNamespaces [] t
  let t := u.updateSchemalocs t
  let t := cybox201UpdateVersions u t
  match translateFields u.translatable t with
  | .error x => .error x
  | .ok t =>
    match (if o.updateVocabularies then updateVocabs u.vocabs t else .ok t) with
    | .error x => .error x
    | .ok t => if o.removeOptionals then removeOptionals u.optionals t else .ok t

/-- `Cybox_2_0_1_Updater` (ramrod/cybox/cybox_2_0_1.py:226-668). -/
def cybox201 : Updater :=
  let u := cybox201Cls Tables.cybox201_nsmap xpathObservables
  { cls := u
    check := cybox201Check u
    disallowed := fun t => (findAll u.disallowed t).map some
    duplicates := fun t => some (getDuplicates u.nsmap t)
    update := cybox201Update u }

/-- `CYBOX_UPDATERS` after registration (ramrod/cybox/__init__.py:97, 100-121). -/
def cyboxUpdaters : List (String × Updater) := [("2.0", cybox20), ("2.0.1", cybox201)]

end Ramrod

import Verif.Samples
/-!
# The project's own unit tests, run on the model

The documents and expectations of ramrod/test, transcribed as examples that are evaluated by the kernel.  They
check the model against what the authors expect of the code; they are tests, no property rests on them.
White space between elements is left out (`remove_blank_text`, ramrod/utils.py:32-38).
-/

namespace Ramrod.UnitTests
open Ramrod.Samples

/-- Namespace in the documents of ramrod/test. -/
def nu_cybox : String := "http://cybox.mitre.org/cybox-2"
/-- Namespace in the documents of ramrod/test. -/
def nu_objAddress : String := "http://cybox.mitre.org/objects#AddressObject-2"
/-- Namespace in the documents of ramrod/test. -/
def nu_objEmailMessage : String := "http://cybox.mitre.org/objects#EmailMessageObject-2"
/-- Namespace in the documents of ramrod/test. -/
def nu_cyboxCommon : String := "http://cybox.mitre.org/common-2"
/-- Namespace in the documents of ramrod/test. -/
def nu_objURI : String := "http://cybox.mitre.org/objects#URIObject-2"
/-- Namespace in the documents of ramrod/test. -/
def nu_objDNSCache : String := "http://cybox.mitre.org/objects#DNSCacheObject-2"
/-- Namespace in the documents of ramrod/test. -/
def nu_objFile : String := "http://cybox.mitre.org/objects#FileObject-2"
/-- Namespace in the documents of ramrod/test. -/
def nu_objDNSQuery : String := "http://cybox.mitre.org/objects#DNSQueryObject-2"
/-- Namespace in the documents of ramrod/test. -/
def nu_objDiskPartition : String := "http://cybox.mitre.org/objects#DiskPartitionObject-2"
/-- Namespace in the documents of ramrod/test. -/
def nu_objHTTPSession : String := "http://cybox.mitre.org/objects#HTTPSessionObject-2"
/-- Namespace in the documents of ramrod/test. -/
def nu_objLinuxPackage : String := "http://cybox.mitre.org/objects#LinuxPackageObject-2"
/-- Namespace in the documents of ramrod/test. -/
def nu_objPacket : String := "http://cybox.mitre.org/objects#PacketObject-2"
/-- Namespace in the documents of ramrod/test. -/
def nu_objSystem : String := "http://cybox.mitre.org/objects#SystemObject-2"
/-- Namespace in the documents of ramrod/test. -/
def nu_objWinComputerAccount : String := "http://cybox.mitre.org/objects#WinComputerAccountObject-2"
/-- Namespace in the documents of ramrod/test. -/
def nu_objWinFile : String := "http://cybox.mitre.org/objects#WinFileObject-2"
/-- Namespace in the documents of ramrod/test. -/
def nu_objWinNetworkShare : String := "http://cybox.mitre.org/objects#WinNetworkShareObject-2"
/-- Namespace in the documents of ramrod/test. -/
def nu_objWinPrefetch : String := "http://cybox.mitre.org/objects#WinPrefetchObject-2"
/-- Namespace in the documents of ramrod/test. -/
def nu_objVolume : String := "http://cybox.mitre.org/objects#VolumeObject-2"
/-- Namespace in the documents of ramrod/test. -/
def nu_objDevice : String := "http://cybox.mitre.org/objects#DeviceObject-2"
/-- Namespace in the documents of ramrod/test. -/
def nu_objWinHandle : String := "http://cybox.mitre.org/objects#WinHandleObject-2"
/-- Namespace in the documents of ramrod/test. -/
def nu_objWinMailslot : String := "http://cybox.mitre.org/objects#WinMailslotObject-2"
/-- Namespace in the documents of ramrod/test. -/
def nu_objWinTask : String := "http://cybox.mitre.org/objects#WinTaskObject-2"
/-- Namespace in the documents of ramrod/test. -/
def nu_objWinExecutableFile : String := "http://cybox.mitre.org/objects#WinExecutableFileObject-2"
/-- Namespace in the documents of ramrod/test. -/
def nu_stix : String := "http://stix.mitre.org/stix-1"
/-- Namespace in the documents of ramrod/test. -/
def nu_indicator : String := "http://stix.mitre.org/Indicator-2"
/-- Namespace in the documents of ramrod/test. -/
def nu_maec : String := "http://stix.mitre.org/extensions/Malware#MAEC4.0-1"
/-- Namespace in the documents of ramrod/test. -/
def nu_ttp : String := "http://stix.mitre.org/TTP-1"
/-- Namespace in the documents of ramrod/test. -/
def nu_capec25 : String := "http://stix.mitre.org/extensions/AP#CAPEC2.5-1"
/-- Namespace in the documents of ramrod/test. -/
def nu_capec26 : String := "http://stix.mitre.org/extensions/AP#CAPEC2.6-1"
/-- Namespace in the documents of ramrod/test. -/
def nu_stixCommon : String := "http://stix.mitre.org/common-1"
/-- Namespace in the documents of ramrod/test. -/
def nu_campaign : String := "http://stix.mitre.org/Campaign-1"
/-- Namespace in the documents of ramrod/test. -/
def nu_et : String := "http://stix.mitre.org/ExploitTarget-1"

/-- Namespace declarations of the root element of documents below. -/
def decls_c20_0 : NsMap :=
  [(some "xsi", "http://www.w3.org/2001/XMLSchema-instance"),
   (some "cybox", "http://cybox.mitre.org/cybox-2")]

/-- Namespace declarations of the root element of documents below. -/
def decls_c20_1 : NsMap :=
  [(some "xsi", "http://www.w3.org/2001/XMLSchema-instance"),
   (some "cybox", "http://cybox.mitre.org/cybox-2"),
   (some "EmailMessageObj", "http://cybox.mitre.org/objects#EmailMessageObject-2"),
   (some "AddressObj", "http://cybox.mitre.org/objects#AddressObject-2")]

/-- Namespace declarations of the root element of documents below. -/
def decls_c20_2 : NsMap :=
  [(some "xsi", "http://www.w3.org/2001/XMLSchema-instance"),
   (some "cybox", "http://cybox.mitre.org/cybox-2"),
   (some "cyboxCommon", "http://cybox.mitre.org/common-2"),
   (some "cyboxVocabs", "http://cybox.mitre.org/default_vocabularies-2")]

/-- Namespace declarations of the root element of documents below. -/
def decls_c201_3 : NsMap :=
  [(some "xsi", "http://www.w3.org/2001/XMLSchema-instance"),
   (some "APIObj", "http://cybox.mitre.org/objects#APIObject-2"),
   (some "AccountObj", "http://cybox.mitre.org/objects#AccountObject-2"),
   (some "AddressObj", "http://cybox.mitre.org/objects#AddressObject-2"),
   (some "ArtifactObj", "http://cybox.mitre.org/objects#ArtifactObject-2"),
   (some "CodeObj", "http://cybox.mitre.org/objects#CodeObject-2"),
   (some "CustomObj", "http://cybox.mitre.org/objects#CustomObject-1"),
   (some "DNSCacheObj", "http://cybox.mitre.org/objects#DNSCacheObject-2"),
   (some "DNSQueryObj", "http://cybox.mitre.org/objects#DNSQueryObject-2"),
   (some "DNSRecordObj", "http://cybox.mitre.org/objects#DNSRecordObject-2"),
   (some "DeviceObj", "http://cybox.mitre.org/objects#DeviceObject-2"),
   (some "DiskObj", "http://cybox.mitre.org/objects#DiskObject-2"),
   (some "DiskPartitionObj", "http://cybox.mitre.org/objects#DiskPartitionObject-2"),
   (some "EmailMessageObj", "http://cybox.mitre.org/objects#EmailMessageObject-2"),
   (some "FileObj", "http://cybox.mitre.org/objects#FileObject-2"),
   (some "GUIDialogBoxObj", "http://cybox.mitre.org/objects#GUIDialogboxObject-2"),
   (some "GUIObj", "http://cybox.mitre.org/objects#GUIObject-2"),
   (some "GUIWindowObj", "http://cybox.mitre.org/objects#GUIWindowObject-2"),
   (some "HTTPSessionObj", "http://cybox.mitre.org/objects#HTTPSessionObject-2"),
   (some "LibraryObj", "http://cybox.mitre.org/objects#LibraryObject-2"),
   (some "LinkObj", "http://cybox.mitre.org/objects#LinkObject-1"),
   (some "LinuxPackageObj", "http://cybox.mitre.org/objects#LinuxPackageObject-2"),
   (some "MemoryObj", "http://cybox.mitre.org/objects#MemoryObject-2"),
   (some "MutexObj", "http://cybox.mitre.org/objects#MutexObject-2"),
   (some "NetFlowObj", "http://cybox.mitre.org/objects#NetworkFlowObject-2"),
   (some "NetworkConnectionObj", "http://cybox.mitre.org/objects#NetworkConnectionObject-2"),
   (some "NetworkRouteEntryObj", "http://cybox.mitre.org/objects#NetworkRouteEntryObject-2"),
   (some "NetworkRouteObj", "http://cybox.mitre.org/objects#NetworkRouteObject-2"),
   (some "NetworkSocketObj", "http://cybox.mitre.org/objects#NetworkSocketObject-2"),
   (some "NetworkSubnetObj", "http://cybox.mitre.org/objects#NetworkSubnetObject-2"),
   (some "PDFFileObj", "http://cybox.mitre.org/objects#PDFFileObject-1"),
   (some "PacketObj", "http://cybox.mitre.org/objects#PacketObject-2"),
   (some "PipeObj", "http://cybox.mitre.org/objects#PipeObject-2"),
   (some "PortObj", "http://cybox.mitre.org/objects#PortObject-2"),
   (some "ProcessObj", "http://cybox.mitre.org/objects#ProcessObject-2"),
   (some "ProductObj", "http://cybox.mitre.org/objects#ProductObject-2"),
   (some "SemaphoreObj", "http://cybox.mitre.org/objects#SemaphoreObject-2"),
   (some "SocketAddressObj", "http://cybox.mitre.org/objects#SocketAddressObject-1"),
   (some "SystemObj", "http://cybox.mitre.org/objects#SystemObject-2"),
   (some "URIObj", "http://cybox.mitre.org/objects#URIObject-2"),
   (some "UnixFileObj", "http://cybox.mitre.org/objects#UnixFileObject-2"),
   (some "UnixNetworkRouteEntryObj", "http://cybox.mitre.org/objects#UnixNetworkRouteEntryObject-2"),
   (some "UnixPipeObj", "http://cybox.mitre.org/objects#UnixPipeObject-2"),
   (some "UnixProcessObj", "http://cybox.mitre.org/objects#UnixProcessObject-2"),
   (some "UnixUserAccountObj", "http://cybox.mitre.org/objects#UnixUserAccountObject-2"),
   (some "UnixVolumeObj", "http://cybox.mitre.org/objects#UnixVolumeObject-2"),
   (some "UserAccountObj", "http://cybox.mitre.org/objects#UserAccountObject-2"),
   (some "UserSessionObj", "http://cybox.mitre.org/objects#UserSessionObject-2"),
   (some "VolumeObj", "http://cybox.mitre.org/objects#VolumeObject-2"),
   (some "WhoisObj", "http://cybox.mitre.org/objects#WhoisObject-2"),
   (some "WinComputerAccountObj", "http://cybox.mitre.org/objects#WinComputerAccountObject-2"),
   (some "WinCriticalSectionObj", "http://cybox.mitre.org/objects#WinCriticalSectionObject-2"),
   (some "WinDriverObj", "http://cybox.mitre.org/objects#WinDriverObject-2"),
   (some "WinEventLogObj", "http://cybox.mitre.org/objects#WinEventLogObject-2"),
   (some "WinEventObj", "http://cybox.mitre.org/objects#WinEventObject-2"),
   (some "WinExecutableFileObj", "http://cybox.mitre.org/objects#WinExecutableFileObject-2"),
   (some "WinFileObj", "http://cybox.mitre.org/objects#WinFileObject-2"),
   (some "WinHandleObj", "http://cybox.mitre.org/objects#WinHandleObject-2"),
   (some "WinKernelHookObj", "http://cybox.mitre.org/objects#WinKernelHookObject-2"),
   (some "WinKernelObj", "http://cybox.mitre.org/objects#WinKernelObject-2"),
   (some "WinMailslotObj", "http://cybox.mitre.org/objects#WinMailslotObject-2"),
   (some "WinMemoryPageRegionObj", "http://cybox.mitre.org/objects#WinMemoryPageRegionObject-2"),
   (some "WinMutexObj", "http://cybox.mitre.org/objects#WinMutexObject-2"),
   (some "WinNetworkRouteEntryObj", "http://cybox.mitre.org/objects#WinNetworkRouteEntryObject-2"),
   (some "WinNetworkShareObj", "http://cybox.mitre.org/objects#WinNetworkShareObject-2"),
   (some "WinPipeObj", "http://cybox.mitre.org/objects#WinPipeObject-2"),
   (some "WinPrefetchObj", "http://cybox.mitre.org/objects#WinPrefetchObject-2"),
   (some "WinProcessObj", "http://cybox.mitre.org/objects#WinProcessObject-2"),
   (some "WinRegistryKeyObj", "http://cybox.mitre.org/objects#WinRegistryKeyObject-2"),
   (some "WinSemaphoreObj", "http://cybox.mitre.org/objects#WinSemaphoreObject-2"),
   (some "WinServiceObj", "http://cybox.mitre.org/objects#WinServiceObject-2"),
   (some "WinSystemObj", "http://cybox.mitre.org/objects#WinSystemObject-2"),
   (some "WinSystemRestoreObj", "http://cybox.mitre.org/objects#WinSystemRestoreObject-2"),
   (some "WinTaskObj", "http://cybox.mitre.org/objects#WinTaskObject-2"),
   (some "WinThreadObj", "http://cybox.mitre.org/objects#WinThreadObject-2"),
   (some "WinUserAccountObj", "http://cybox.mitre.org/objects#WinUserAccountObject-2"),
   (some "WinVolumeObj", "http://cybox.mitre.org/objects#WinVolumeObject-2"),
   (some "WinWaitableTimerObj", "http://cybox.mitre.org/objects#WinWaitableTimerObject-2"),
   (some "X509CertificateObj", "http://cybox.mitre.org/objects#X509CertificateObject-2"),
   (some "cybox", "http://cybox.mitre.org/cybox-2"),
   (some "cybox-cpe", "http://cybox.mitre.org/extensions/platform#CPE2.3-1"),
   (some "cyboxCommon", "http://cybox.mitre.org/common-2"),
   (some "cyboxVocabs", "http://cybox.mitre.org/default_vocabularies-2"),
   (some "example", "http://example.com/")]

/-- Namespace declarations of the root element of documents below. -/
def decls_s10_4 : NsMap :=
  [(some "xsi", "http://www.w3.org/2001/XMLSchema-instance"),
   (some "stix", "http://stix.mitre.org/stix-1"),
   (some "stixCommon", "http://stix.mitre.org/common-1"),
   (some "indicator", "http://stix.mitre.org/Indicator-2"),
   (some "ttp", "http://stix.mitre.org/TTP-1"),
   (some "stixVocabs", "http://stix.mitre.org/default_vocabularies-1"),
   (some "stix-capec", "http://stix.mitre.org/extensions/AP#CAPEC2.5-1"),
   (some "stix-maec", "http://stix.mitre.org/extensions/Malware#MAEC4.0-1"),
   (some "example", "http://example.com/")]

/-- Namespace declarations of the root element of documents below. -/
def decls_s101_5 : NsMap :=
  [(some "xsi", "http://www.w3.org/2001/XMLSchema-instance"),
   (some "stix", "http://stix.mitre.org/stix-1"),
   (some "stixCommon", "http://stix.mitre.org/common-1"),
   (some "campaign", "http://stix.mitre.org/Campaign-1"),
   (some "indicator", "http://stix.mitre.org/Indicator-2"),
   (some "et", "http://stix.mitre.org/ExploitTarget-1"),
   (some "ttp", "http://stix.mitre.org/TTP-1"),
   (some "stixVocabs", "http://stix.mitre.org/default_vocabularies-1"),
   (some "stix-capec", "http://stix.mitre.org/extensions/AP#CAPEC2.6-1"),
   (some "stix-maec", "http://stix.mitre.org/extensions/Malware#MAEC4.0-1"),
   (some "example", "http://example.com/"),
   (some "ramrod", "http://ramrod.test/")]

/-- Namespace declarations of the root element of documents below. -/
def decls_s11_6 : NsMap :=
  [(some "xsi", "http://www.w3.org/2001/XMLSchema-instance"),
   (some "stix", "http://stix.mitre.org/stix-1"),
   (some "stixCommon", "http://stix.mitre.org/common-1"),
   (some "campaign", "http://stix.mitre.org/Campaign-1"),
   (some "indicator", "http://stix.mitre.org/Indicator-2"),
   (some "et", "http://stix.mitre.org/ExploitTarget-1"),
   (some "ttp", "http://stix.mitre.org/TTP-1"),
   (some "stixVocabs", "http://stix.mitre.org/default_vocabularies-1"),
   (some "example", "http://example.com/"),
   (some "ramrod", "http://ramrod.test/")]

/-- Namespace declarations of the root element of documents below. -/
def decls_v_7 : NsMap :=
  [(some "xsi", "http://www.w3.org/2001/XMLSchema-instance"),
   (some "stix", "http://stix.mitre.org/stix-1")]

/-- World of the tests: the date of the tests is the only valid one, and the marked-up text is not used. -/
def wt : World :=
  ⟨fun n => match n with
    | .elem e _ => e.text == some "2002-05-30T09:30:10+06:00"
    | .other _ _ => false, fun _ => none⟩

/-- Default options (ramrod/options.py:4-35) with an id generator numbering its results. -/
def ot : Options := o0

/-- Does a path, its last step first, lead to an element with these tags (its own and those of its ancestors,
nearest first)?  A step says whether it is a child step (`/`) or a descendant step (`//`). -/
def Leads : List (Bool × QName) → List QName → Bool
  | [], _ => true
  | _ :: _, [] => false
  | (child, q) :: up, tag :: anc =>
    decide (tag = q) &&
      (up.isEmpty || (if child then Leads up anc else (List.range anc.length).any (fun n => Leads up (anc.drop n))))

/-- The texts of the elements a path leads to. -/
def textsAt (path : List (Bool × QName)) (t : Node) : List (Option String) :=
  (t.elems.filter (fun c => Leads path (c.e.tag :: c.anc))).map (fun c => c.e.text)

/-- How many nodes a vocabulary class finds. -/
def foundVocab (v : Vocab) (t : Node) : Option Nat := (v.find (getTypedNodes t)).toOption.map List.length

/-- How many nodes a finder class finds. -/
def found (t : Node) (f : Finder) : Option Nat := (f.find t).toOption.map List.length

/-- `InvalidVersionError`. -/
def isInvalid {α : Type} : Except Err α → Bool
  | .error (.invalidVersion _ _ _) => true
  | _ => false

/-- `UnknownVersionError`. -/
def isUnknown {α : Type} : Except Err α → Bool
  | .error .unknownVersion => true
  | _ => false

/-- `UpdateError`. -/
def isUpdateError {α : Type} : Except Err α → Bool
  | .error (.update _ _) => true
  | _ => false

/-- A result. -/
def isOk {α : Type} : Except Err α → Bool
  | .ok _ => true
  | _ => false

/-! ## ramrod/test/cybox/cybox_2_0_test.py -/

/-- Document of `Cybox_2_0_Test` (ramrod/test/cybox/cybox_2_0_test.py:16-44). -/
def c20_Cybox_2_0_Test : Node :=
  el nu_cybox "Observables" [at_ "id" "example:1", at_ "cybox_major_version" "2", at_ "cybox_minor_version" "0"] [] none decls_c20_0

-- `test_get_version`, `test_update_version` (ramrod/test/cybox/cybox_2_0_test.py:16-44).
example : (cyboxRootVersion c20_Cybox_2_0_Test).toOption = some "2.0" := by decide +kernel
example : (update wt c20_Cybox_2_0_Test none (some "2.0.1") ot false 0).toOption.bind (fun r => (fun t => (cyboxRootVersion t).toOption) r.1.doc) = some "2.0.1" := by
  decide +kernel
example : (update wt c20_Cybox_2_0_Test none (some "2.1") ot false 0).toOption.bind (fun r => (fun t => (cyboxRootVersion t).toOption) r.1.doc) = some "2.1" := by
  decide +kernel

/-- Document of `CommaTest` (ramrod/test/cybox/cybox_2_0_test.py:47-99). -/
def c20_CommaTest : Node :=
  el nu_cybox "Object" [xsiType "EmailMessageObj:EmailMessageObjectType"] [
    el nu_cybox "Properties" [] [
      el nu_objEmailMessage "Header" [] [
        el nu_objEmailMessage "From" [at_ "category" "e-mail"] [
          el nu_objAddress "Address_Value" [at_ "condition" "Equals", at_ "apply_condition" "ANY"] [] (some "attacker@example.com,attacker1@example.com,attacker@bad.example.com")],
        el nu_objEmailMessage "Subject" [at_ "condition" "Equals"] [] (some "Et tu&comma; Brute?")]]] none decls_c20_1

-- `test_lists`, `test_commas` (ramrod/test/cybox/cybox_2_0_test.py:47-99).
example : textsAt [(false, ⟨some nu_objAddress, "Address_Value"⟩)] (updateLists cybox20.cls c20_CommaTest) =
    [some "attacker@example.com##comma##attacker1@example.com##comma##attacker@bad.example.com"] := by decide +kernel
example : textsAt [(false, ⟨some nu_objEmailMessage, "Subject"⟩)] (updateLists cybox20.cls c20_CommaTest) =
    [some "Et tu, Brute?"] := by decide +kernel

/-- Document of `EventTypeVocab` (ramrod/test/cybox/cybox_2_0_test.py:102-130). -/
def c20_EventTypeVocab : Node :=
  el nu_cybox "Observables" [at_ "cybox_major_version" "2", at_ "cybox_minor_version" "0"] [
    el nu_cybox "Observable" [] [
      el nu_cybox "Event" [] [
        el nu_cybox "Type" [xsiType "cyboxVocabs:EventTypeVocab-1.0"] [] (some "Anomoly Events")]],
    el nu_cybox "Observable" [] [
      el nu_cybox "Event" [] [
        el nu_cybox "Type" [xsiType "cyboxVocabs:EventTypeVocab-1.0"] [] (some "Anomoly Events")]],
    el nu_cybox "Observable" [] [
      el nu_cybox "Event" [] [
        el nu_cybox "Type" [xsiType "cyboxVocabs:NotATypeVocab-1.0"] [] (some "Not A Vocab")]]] none decls_c20_2

-- `test_find`, `test_vocab_update` (ramrod/test/cybox/cybox_2_0_test.py:102-130).
example : foundVocab eventTypeVocab c20_EventTypeVocab = some 2 := by decide +kernel
example : (eventTypeVocab.update c20_EventTypeVocab).toOption.bind (foundVocab eventTypeVocab) = some 0 := by decide +kernel

/-! ## ramrod/test/cybox/cybox_2_0_1_test.py -/

/-- Document of `Cybox_2_0_1_Test` (ramrod/test/cybox/cybox_2_0_1_test.py:108-136). -/
def c201_Cybox_2_0_1_Test : Node :=
  el nu_cybox "Observables" [at_ "id" "example:1", at_ "cybox_major_version" "2", at_ "cybox_minor_version" "0", at_ "cybox_update_version" "1"] [] none decls_c20_0

-- `test_get_version`, `test_update_version` (ramrod/test/cybox/cybox_2_0_1_test.py:108-136).
example : (cyboxRootVersion c201_Cybox_2_0_1_Test).toOption = some "2.0.1" := by decide +kernel
example : (update wt c201_Cybox_2_0_1_Test none (some "2.1") ot false 0).toOption.bind (fun r => (fun t => (cyboxRootVersion t).toOption) r.1.doc) = some "2.1" := by
  decide +kernel

/-- Document of `OptionalURIFieldsTest` (ramrod/test/cybox/cybox_2_0_1_test.py:139-166). -/
def c201_OptionalURIFieldsTest : Node :=
  el nu_cybox "Observables" [at_ "cybox_major_version" "2", at_ "cybox_minor_version" "0", at_ "cybox_update_version" "1"] [
    el nu_cybox "Observable" [at_ "id" "example:foo-1"] [
      el nu_cybox "Object" [at_ "id" "example:foo-1"] [
        el nu_cybox "Properties" [xsiType "URIObj:URIObjectType", at_ "type" "URL"] [
          el nu_cyboxCommon "Custom_Properties" [] [
            el nu_cyboxCommon "Property" [at_ "name" "Test", at_ "condition" "Equals"] [] (some "TEST")],
          el nu_objURI "Value" [] []]]],
    el nu_cybox "Observable" [at_ "id" "example:foo-2"] [
      el nu_cybox "Object" [at_ "id" "example:foo-2"] [
        el nu_cybox "Properties" [xsiType "URIObj:URIObjectType", at_ "type" "URL"] [
          el nu_cyboxCommon "Custom_Properties" [] [
            el nu_cyboxCommon "Property" [at_ "name" "Test", at_ "condition" "Equals"] [] (some "TEST")],
          el nu_objURI "Value" [] []]]]] none decls_c201_3

-- `test_optional_find`, `test_optional_removal` (ramrod/test/cybox/cybox_2_0_1_test.py:139-166).
example : (cybox201Optionals[0]?).bind (found c201_OptionalURIFieldsTest) = some 2 := by decide +kernel
example : (removeOptionals cybox201Optionals c201_OptionalURIFieldsTest).toOption.bind
    (fun t => (cybox201Optionals[0]?).bind (found t)) = some 0 := by decide +kernel

/-- Document of `OptionalDNSCacheFieldsTest` (ramrod/test/cybox/cybox_2_0_1_test.py:168-197). -/
def c201_OptionalDNSCacheFieldsTest : Node :=
  el nu_cybox "Observables" [at_ "cybox_major_version" "2", at_ "cybox_minor_version" "0", at_ "cybox_update_version" "1"] [
    el nu_cybox "Observable" [] [
      el nu_cybox "Description" [] [] (some "Test Optional DNS_Entry Removal."),
      el nu_cybox "Object" [] [
        el nu_cybox "Properties" [xsiType "DNSCacheObj:DNSCacheObjectType"] [
          el nu_objDNSCache "DNS_Cache_Entry" [] [
            el nu_objDNSCache "DNS_Entry" [] [],
            el nu_objDNSCache "TTL" [] [] (some "1")]]]],
    el nu_cybox "Observable" [] [
      el nu_cybox "Description" [] [] (some "Test Optional DNS_Entry Removal."),
      el nu_cybox "Object" [] [
        el nu_cybox "Properties" [xsiType "DNSCacheObj:DNSCacheObjectType"] [
          el nu_objDNSCache "DNS_Cache_Entry" [] [
            el nu_objDNSCache "DNS_Entry" [] [],
            el nu_objDNSCache "TTL" [] [] (some "1")]]]]] none decls_c201_3

-- `test_optional_find`, `test_optional_removal` (ramrod/test/cybox/cybox_2_0_1_test.py:168-197).
example : (cybox201Optionals[2]?).bind (found c201_OptionalDNSCacheFieldsTest) = some 2 := by decide +kernel
example : (removeOptionals cybox201Optionals c201_OptionalDNSCacheFieldsTest).toOption.bind
    (fun t => (cybox201Optionals[2]?).bind (found t)) = some 0 := by decide +kernel

/-- Document of `OptionaFileFieldsTest` (ramrod/test/cybox/cybox_2_0_1_test.py:200-237). -/
def c201_OptionaFileFieldsTest : Node :=
  el nu_cybox "Observables" [at_ "cybox_major_version" "2", at_ "cybox_minor_version" "0", at_ "cybox_update_version" "1"] [
    el nu_cybox "Observable" [] [
      el nu_cybox "Description" [] [] (some "Test optional Depth element removal."),
      el nu_cybox "Object" [] [
        el nu_cybox "Properties" [xsiType "FileObj:FileObjectType"] [
          el nu_objFile "Packer_List" [] [
            el nu_objFile "Packer" [] [
              el nu_objFile "EP_Jump_Codes" [] [
                el nu_objFile "Depth" [] [],
                el nu_objFile "Opcodes" [] [] (some "Test")]]]]]],
    el nu_cybox "Observable" [] [
      el nu_cybox "Description" [] [] (some "Test optional Depth element removal."),
      el nu_cybox "Object" [] [
        el nu_cybox "Properties" [xsiType "FileObj:FileObjectType"] [
          el nu_objFile "Packer_List" [] [
            el nu_objFile "Packer" [] [
              el nu_objFile "EP_Jump_Codes" [] [
                el nu_objFile "Depth" [] [],
                el nu_objFile "Opcodes" [] [] (some "Test")]]]]]]] none decls_c201_3

-- `test_optional_find`, `test_optional_removal` (ramrod/test/cybox/cybox_2_0_1_test.py:200-237).
example : (cybox201Optionals[4]?).bind (found c201_OptionaFileFieldsTest) = some 2 := by decide +kernel
example : (removeOptionals cybox201Optionals c201_OptionaFileFieldsTest).toOption.bind
    (fun t => (cybox201Optionals[4]?).bind (found t)) = some 0 := by decide +kernel

/-- Document of `OptionalDNSQueryFieldsTest` (ramrod/test/cybox/cybox_2_0_1_test.py:240-271). -/
def c201_OptionalDNSQueryFieldsTest : Node :=
  el nu_cybox "Observables" [at_ "cybox_major_version" "2", at_ "cybox_minor_version" "0", at_ "cybox_update_version" "1"] [
    el nu_cybox "Observable" [] [
      el nu_cybox "Description" [] [] (some "Test Optional QName removal. This includes an optional URIObj:Value field removal."),
      el nu_cybox "Object" [] [
        el nu_cybox "Properties" [xsiType "DNSQueryObj:DNSQueryObjectType"] [
          el nu_objDNSQuery "Question" [] [
            el nu_objDNSQuery "QName" [] [
              el nu_objURI "Value" [] []]]]]],
    el nu_cybox "Observable" [] [
      el nu_cybox "Description" [] [] (some "Test Optional QName removal. This includes an optional URIObj:Value field removal."),
      el nu_cybox "Object" [] [
        el nu_cybox "Properties" [xsiType "DNSQueryObj:DNSQueryObjectType"] [
          el nu_objDNSQuery "Question" [] [
            el nu_objDNSQuery "QName" [] [
              el nu_objURI "Value" [] []]]]]]] none decls_c201_3

-- `test_optional_find`, `test_optional_removal` (ramrod/test/cybox/cybox_2_0_1_test.py:240-271).
example : (cybox201Optionals[3]?).bind (found c201_OptionalDNSQueryFieldsTest) = some 2 := by decide +kernel
example : (removeOptionals cybox201Optionals c201_OptionalDNSQueryFieldsTest).toOption.bind
    (fun t => (cybox201Optionals[3]?).bind (found t)) = some 0 := by decide +kernel

/-- Document of `OptionalDiskPartitionFieldsTest` (ramrod/test/cybox/cybox_2_0_1_test.py:274-297). -/
def c201_OptionalDiskPartitionFieldsTest : Node :=
  el nu_cybox "Observables" [at_ "cybox_major_version" "2", at_ "cybox_minor_version" "0", at_ "cybox_update_version" "1"] [
    el nu_cybox "Observable" [] [
      el nu_cybox "Description" [] [] (some "Test Optional Partition_ID Removal"),
      el nu_cybox "Object" [] [
        el nu_cybox "Properties" [xsiType "DiskPartitionObj:DiskPartitionObjectType"] [
          el nu_objDiskPartition "Partition_ID" [] []]]],
    el nu_cybox "Observable" [] [
      el nu_cybox "Description" [] [] (some "Test Optional Partition_ID Removal"),
      el nu_cybox "Object" [] [
        el nu_cybox "Properties" [xsiType "DiskPartitionObj:DiskPartitionObjectType"] [
          el nu_objDiskPartition "Partition_ID" [] []]]]] none decls_c201_3

-- `test_optional_find`, `test_optional_removal` (ramrod/test/cybox/cybox_2_0_1_test.py:274-297).
example : (cybox201Optionals[1]?).bind (found c201_OptionalDiskPartitionFieldsTest) = some 2 := by decide +kernel
example : (removeOptionals cybox201Optionals c201_OptionalDiskPartitionFieldsTest).toOption.bind
    (fun t => (cybox201Optionals[1]?).bind (found t)) = some 0 := by decide +kernel

/-- Document of `OptionalHTTPSessionFieldsTest` (ramrod/test/cybox/cybox_2_0_1_test.py:300-344). -/
def c201_OptionalHTTPSessionFieldsTest : Node :=
  el nu_cybox "Observables" [at_ "cybox_major_version" "2", at_ "cybox_minor_version" "0", at_ "cybox_update_version" "1"] [
    el nu_cybox "Observable" [at_ "id" "example:Observable-1c9af310-0d5a-4c44-bdd7-aea3d99f13b9"] [
      el nu_cybox "Description" [] [] (some "Test HTTP Session Object translations"),
      el nu_cybox "Object" [at_ "id" "example:Object-26be6630-b2df-4bf9-8750-3f45ca9e19d3"] [
        el nu_cybox "Properties" [xsiType "HTTPSessionObj:HTTPSessionObjectType"] [
          el nu_objHTTPSession "HTTP_Request_Response" [] [
            el nu_objHTTPSession "HTTP_Client_Request" [] [
              el nu_objHTTPSession "HTTP_Message_Body" [] [
                el nu_objHTTPSession "Length" [] [] (some "1024"),
                .other "Message_Body is not optional in CybOX 2.0.1 and will be removed in the update process" none,
                el nu_objHTTPSession "Message_Body" [] []]]]]]],
    el nu_cybox "Observable" [at_ "id" "example:Observable-1c9af310-0d5a-4c44-bdd7-aea3d99f13b9"] [
      el nu_cybox "Description" [] [] (some "Test HTTP Session Object translations"),
      el nu_cybox "Object" [at_ "id" "example:Object-26be6630-b2df-4bf9-8750-3f45ca9e19d3"] [
        el nu_cybox "Properties" [xsiType "HTTPSessionObj:HTTPSessionObjectType"] [
          el nu_objHTTPSession "HTTP_Request_Response" [] [
            el nu_objHTTPSession "HTTP_Client_Request" [] [
              el nu_objHTTPSession "HTTP_Request_Header" [] [
                el nu_objHTTPSession "Parsed_Header" [] [
                  el nu_objHTTPSession "Host" [] [
                    .other " Test removal of optional Domain Name. URIObj:Value will be removed too " none,
                    el nu_objHTTPSession "Domain_Name" [] [
                      el nu_objURI "Value" [] []]]]]]]]]]] none decls_c201_3

-- `test_optional_find`, `test_optional_removal` (ramrod/test/cybox/cybox_2_0_1_test.py:300-344).
example : (cybox201Optionals[5]?).bind (found c201_OptionalHTTPSessionFieldsTest) = some 2 := by decide +kernel
example : (removeOptionals cybox201Optionals c201_OptionalHTTPSessionFieldsTest).toOption.bind
    (fun t => (cybox201Optionals[5]?).bind (found t)) = some 0 := by decide +kernel

/-- Document of `OptionalLinuxPackageFieldsTest` (ramrod/test/cybox/cybox_2_0_1_test.py:347-367). -/
def c201_OptionalLinuxPackageFieldsTest : Node :=
  el nu_cybox "Observables" [at_ "cybox_major_version" "2", at_ "cybox_minor_version" "0", at_ "cybox_update_version" "1"] [
    el nu_cybox "Observable" [] [
      el nu_cybox "Object" [] [
        el nu_cybox "Properties" [xsiType "LinuxPackageObj:LinuxPackageObjectType"] [
          el nu_objLinuxPackage "Name" [] []]]],
    el nu_cybox "Observable" [] [
      el nu_cybox "Object" [] [
        el nu_cybox "Properties" [xsiType "LinuxPackageObj:LinuxPackageObjectType"] [
          el nu_objLinuxPackage "Name" [] []]]]] none decls_c201_3

-- `test_optional_find`, `test_optional_removal` (ramrod/test/cybox/cybox_2_0_1_test.py:347-367).
example : (cybox201Optionals[6]?).bind (found c201_OptionalLinuxPackageFieldsTest) = some 2 := by decide +kernel
example : (removeOptionals cybox201Optionals c201_OptionalLinuxPackageFieldsTest).toOption.bind
    (fun t => (cybox201Optionals[6]?).bind (found t)) = some 0 := by decide +kernel

/-- Document of `OptionalNetworkPacketFieldsTest` (ramrod/test/cybox/cybox_2_0_1_test.py:370-406). -/
def c201_OptionalNetworkPacketFieldsTest : Node :=
  el nu_cybox "Observables" [at_ "cybox_major_version" "2", at_ "cybox_minor_version" "0", at_ "cybox_update_version" "1"] [
    el nu_cybox "Observable" [] [
      el nu_cybox "Description" [] [] (some "Test removal of optional Network Packet Object fields."),
      el nu_cybox "Object" [] [
        el nu_cybox "Properties" [xsiType "PacketObj:NetworkPacketObjectType"] [
          el nu_objPacket "Internet_Layer" [] [
            el nu_objPacket "ICMPv4" [] [
              el nu_objPacket "Info_Msg" [] [
                el nu_objPacket "Echo_Reply" [] []]]]]]],
    el nu_cybox "Observable" [] [
      el nu_cybox "Description" [] [] (some "Test removal of optional Network Packet Object fields."),
      el nu_cybox "Object" [] [
        el nu_cybox "Properties" [xsiType "PacketObj:NetworkPacketObjectType"] [
          el nu_objPacket "Internet_Layer" [] [
            el nu_objPacket "ICMPv4" [] [
              el nu_objPacket "Info_Msg" [] [
                el nu_objPacket "Echo_Request" [] []]]]]]]] none decls_c201_3

-- `test_optional_find`, `test_optional_removal` (ramrod/test/cybox/cybox_2_0_1_test.py:370-406).
example : (cybox201Optionals[7]?).bind (found c201_OptionalNetworkPacketFieldsTest) = some 4 := by decide +kernel
example : (removeOptionals cybox201Optionals c201_OptionalNetworkPacketFieldsTest).toOption.bind
    (fun t => (cybox201Optionals[7]?).bind (found t)) = some 0 := by decide +kernel

/-- Document of `OptionalSystemFields` (ramrod/test/cybox/cybox_2_0_1_test.py:409-450). -/
def c201_OptionalSystemFields : Node :=
  el nu_cybox "Observables" [at_ "cybox_major_version" "2", at_ "cybox_minor_version" "0", at_ "cybox_update_version" "1"] [
    el nu_cybox "Observable" [] [
      el nu_cybox "Description" [] [] (some "Tests SystemObj IP_Address removal."),
      el nu_cybox "Object" [] [
        el nu_cybox "Properties" [xsiType "SystemObj:SystemObjectType"] [
          el nu_objSystem "Network_Interface_List" [] [
            el nu_objSystem "Network_Interface" [] [
              el nu_objSystem "IP_List" [] [
                el nu_objSystem "IP_Info" [] [
                  el nu_objSystem "IP_Address" [] [],
                  el nu_objSystem "Subnet_Mask" [] []]]]]]]],
    el nu_cybox "Observable" [] [
      el nu_cybox "Description" [] [] (some "Tests SystemObj IP_Address removal."),
      el nu_cybox "Object" [] [
        el nu_cybox "Properties" [xsiType "SystemObj:SystemObjectType"] [
          el nu_objSystem "Network_Interface_List" [] [
            el nu_objSystem "Network_Interface" [] [
              el nu_objSystem "IP_List" [] [
                el nu_objSystem "IP_Info" [] [
                  el nu_objSystem "IP_Address" [] [],
                  el nu_objSystem "Subnet_Mask" [] []]]]]]]]] none decls_c201_3

-- `test_optional_find`, `test_optional_removal` (ramrod/test/cybox/cybox_2_0_1_test.py:409-450).
example : (cybox201Optionals[9]?).bind (found c201_OptionalSystemFields) = some 2 := by decide +kernel
example : (removeOptionals cybox201Optionals c201_OptionalSystemFields).toOption.bind
    (fun t => (cybox201Optionals[9]?).bind (found t)) = some 0 := by decide +kernel

/-- Document of `OptionalWinComputerAccountFields` (ramrod/test/cybox/cybox_2_0_1_test.py:452-487). -/
def c201_OptionalWinComputerAccountFields : Node :=
  el nu_cybox "Observables" [at_ "cybox_major_version" "2", at_ "cybox_minor_version" "0", at_ "cybox_update_version" "1"] [
    el nu_cybox "Observable" [] [
      el nu_cybox "Description" [] [] (some "Test Optional WinComputerAccountObj element removal."),
      el nu_cybox "Object" [] [
        el nu_cybox "Properties" [xsiType "WinComputerAccountObj:WindowsComputerAccountObjectType"] [
          el nu_objWinComputerAccount "Kerberos" [] [
            el nu_objWinComputerAccount "Delegation" [] [
              el nu_objWinComputerAccount "Bitmask" [] [],
              el nu_objWinComputerAccount "Service" [] []],
            el nu_objWinComputerAccount "Ticket" [] [] (some "1")]]]],
    el nu_cybox "Observable" [] [
      el nu_cybox "Description" [] [] (some "Test Optional WinComputerAccountObj element removal."),
      el nu_cybox "Object" [] [
        el nu_cybox "Properties" [xsiType "WinComputerAccountObj:WindowsComputerAccountObjectType"] [
          el nu_objWinComputerAccount "Kerberos" [] [
            el nu_objWinComputerAccount "Delegation" [] [
              el nu_objWinComputerAccount "Bitmask" [] [],
              el nu_objWinComputerAccount "Service" [] []],
            el nu_objWinComputerAccount "Ticket" [] [] (some "1")]]]]] none decls_c201_3

-- `test_optional_find`, `test_optional_removal` (ramrod/test/cybox/cybox_2_0_1_test.py:452-487).
example : (cybox201Optionals[10]?).bind (found c201_OptionalWinComputerAccountFields) = some 6 := by decide +kernel
example : (removeOptionals cybox201Optionals c201_OptionalWinComputerAccountFields).toOption.bind
    (fun t => (cybox201Optionals[10]?).bind (found t)) = some 0 := by decide +kernel

/-- Document of `OptionalWinFileFields` (ramrod/test/cybox/cybox_2_0_1_test.py:489-526). -/
def c201_OptionalWinFileFields : Node :=
  el nu_cybox "Observables" [at_ "cybox_major_version" "2", at_ "cybox_minor_version" "0", at_ "cybox_update_version" "1"] [
    el nu_cybox "Observable" [] [
      el nu_cybox "Description" [] [] (some "Test WinFileObject Size_In_Bytes element removal."),
      el nu_cybox "Object" [] [
        el nu_cybox "Properties" [xsiType "WinFileObj:WindowsFileObjectType"] [
          el nu_objWinFile "Security_ID" [] [] (some "TEST"),
          el nu_objWinFile "Stream_List" [] [
            el nu_objWinFile "Stream" [] [
              el nu_cyboxCommon "Hash" [] [],
              el nu_objWinFile "Name" [] [] (some "Test"),
              el nu_objWinFile "Size_In_Bytes" [] []]]]]],
    el nu_cybox "Observable" [] [
      el nu_cybox "Description" [] [] (some "Test WinFileObject Size_In_Bytes element removal."),
      el nu_cybox "Object" [] [
        el nu_cybox "Properties" [xsiType "WinFileObj:WindowsFileObjectType"] [
          el nu_objWinFile "Security_ID" [] [] (some "TEST"),
          el nu_objWinFile "Stream_List" [] [
            el nu_objWinFile "Stream" [] [
              el nu_cyboxCommon "Hash" [] [],
              el nu_objWinFile "Name" [] [] (some "Test"),
              el nu_objWinFile "Size_In_Bytes" [] []]]]]]] none decls_c201_3

-- `test_optional_find`, `test_optional_removal` (ramrod/test/cybox/cybox_2_0_1_test.py:489-526).
example : (cybox201Optionals[11]?).bind (found c201_OptionalWinFileFields) = some 2 := by decide +kernel
example : (removeOptionals cybox201Optionals c201_OptionalWinFileFields).toOption.bind
    (fun t => (cybox201Optionals[11]?).bind (found t)) = some 0 := by decide +kernel

/-- Document of `OptionalWinNetworkShareFields` (ramrod/test/cybox/cybox_2_0_1_test.py:528-553). -/
def c201_OptionalWinNetworkShareFields : Node :=
  el nu_cybox "Observables" [at_ "cybox_major_version" "2", at_ "cybox_minor_version" "0", at_ "cybox_update_version" "1"] [
    el nu_cybox "Observable" [] [
      el nu_cybox "Description" [] [] (some "Test optional WinNetworkShareObj Netname element removal"),
      el nu_cybox "Object" [] [
        el nu_cybox "Properties" [xsiType "WinNetworkShareObj:WindowsNetworkShareObjectType"] [
          el nu_objWinNetworkShare "Current_Uses" [] [] (some "0"),
          el nu_objWinNetworkShare "Netname" [] []]]],
    el nu_cybox "Observable" [] [
      el nu_cybox "Description" [] [] (some "Test optional WinNetworkShareObj Netname element removal"),
      el nu_cybox "Object" [] [
        el nu_cybox "Properties" [xsiType "WinNetworkShareObj:WindowsNetworkShareObjectType"] [
          el nu_objWinNetworkShare "Current_Uses" [] [] (some "0"),
          el nu_objWinNetworkShare "Netname" [] []]]]] none decls_c201_3

-- `test_optional_find`, `test_optional_removal` (ramrod/test/cybox/cybox_2_0_1_test.py:528-553).
example : (cybox201Optionals[12]?).bind (found c201_OptionalWinNetworkShareFields) = some 2 := by decide +kernel
example : (removeOptionals cybox201Optionals c201_OptionalWinNetworkShareFields).toOption.bind
    (fun t => (cybox201Optionals[12]?).bind (found t)) = some 0 := by decide +kernel

/-- Document of `OptionalWinPrefetchFields` (ramrod/test/cybox/cybox_2_0_1_test.py:556-581). -/
def c201_OptionalWinPrefetchFields : Node :=
  el nu_cybox "Observables" [at_ "cybox_major_version" "2", at_ "cybox_minor_version" "0", at_ "cybox_update_version" "1"] [
    el nu_cybox "Observable" [] [
      el nu_cybox "Description" [] [] (some "Test optional WinPrefetchObj element removal"),
      el nu_cybox "Object" [] [
        el nu_cybox "Properties" [xsiType "WinPrefetchObj:WindowsPrefetchObjectType"] [
          el nu_objWinPrefetch "Application_File_Name" [] [] (some "Test"),
          el nu_objWinPrefetch "Volume" [] [
            el nu_objWinPrefetch "VolumeItem" [] [],
            el nu_objWinPrefetch "VolumeItem" [] [
              el nu_objVolume "Name" [] [] (some "Not Empty")],
            el nu_objWinPrefetch "DeviceItem" [] [],
            el nu_objWinPrefetch "DeviceItem" [] [
              el nu_objDevice "Description" [] [] (some "Not Empty")]]]]]] none decls_c201_3

-- `test_optional_find`, `test_optional_removal` (ramrod/test/cybox/cybox_2_0_1_test.py:556-581).
example : (cybox201Optionals[13]?).bind (found c201_OptionalWinPrefetchFields) = some 2 := by decide +kernel
example : (removeOptionals cybox201Optionals c201_OptionalWinPrefetchFields).toOption.bind
    (fun t => (cybox201Optionals[13]?).bind (found t)) = some 0 := by decide +kernel

/-- Document of `TransHTTPSessionDNT` (ramrod/test/cybox/cybox_2_0_1_test.py:584-611). -/
def c201_TransHTTPSessionDNT : Node :=
  el nu_cybox "Observables" [at_ "cybox_major_version" "2", at_ "cybox_minor_version" "0", at_ "cybox_update_version" "1"] [
    el nu_cybox "Observable" [at_ "id" "example:Observable-1c9af310-0d5a-4c44-bdd7-aea3d99f13b9"] [
      el nu_cybox "Object" [at_ "id" "example:Object-26be6630-b2df-4bf9-8750-3f45ca9e19d3"] [
        el nu_cybox "Properties" [xsiType "HTTPSessionObj:HTTPSessionObjectType"] [
          el nu_objHTTPSession "HTTP_Request_Response" [] [
            el nu_objHTTPSession "HTTP_Client_Request" [] [
              el nu_objHTTPSession "HTTP_Request_Header" [] [
                el nu_objHTTPSession "Parsed_Header" [] [
                  el nu_objHTTPSession "DNT" [] [
                    el nu_objURI "Value" [] [] (some "TEST! TEST! TEST!")]]]]]]]]] none decls_c201_3

-- `test_trans_find`, `test_trans` (ramrod/test/cybox/cybox_2_0_1_test.py:584-611).
example : (c201_TransHTTPSessionDNT.xpath transDNT.nsmap transDNT.xpath).length = 1 := by decide +kernel
example : (transDNT.translate c201_TransHTTPSessionDNT).toOption.map
      (textsAt [(false, ⟨some nu_objHTTPSession, "DNT"⟩)]) =
    some [some "TEST! TEST! TEST!"] := by decide +kernel

/-- Document of `TransHTTPSessionVary` (ramrod/test/cybox/cybox_2_0_1_test.py:614-641). -/
def c201_TransHTTPSessionVary : Node :=
  el nu_cybox "Observables" [at_ "cybox_major_version" "2", at_ "cybox_minor_version" "0", at_ "cybox_update_version" "1"] [
    el nu_cybox "Observable" [at_ "id" "example:Observable-1c9af310-0d5a-4c44-bdd7-aea3d99f13b9"] [
      el nu_cybox "Object" [at_ "id" "example:Object-26be6630-b2df-4bf9-8750-3f45ca9e19d3"] [
        el nu_cybox "Properties" [xsiType "HTTPSessionObj:HTTPSessionObjectType"] [
          el nu_objHTTPSession "HTTP_Request_Response" [] [
            el nu_objHTTPSession "HTTP_Server_Response" [] [
              el nu_objHTTPSession "HTTP_Response_Header" [] [
                el nu_objHTTPSession "Parsed_Header" [] [
                  el nu_objHTTPSession "Vary" [] [
                    el nu_objURI "Value" [] [] (some "TEST! TEST! TEST!")]]]]]]]]] none decls_c201_3

-- `test_trans_find`, `test_trans` (ramrod/test/cybox/cybox_2_0_1_test.py:614-641).
example : (c201_TransHTTPSessionVary.xpath transVary.nsmap transVary.xpath).length = 1 := by decide +kernel
example : (transVary.translate c201_TransHTTPSessionVary).toOption.map
      (textsAt [(false, ⟨some nu_objHTTPSession, "Vary"⟩)]) =
    some [some "TEST! TEST! TEST!"] := by decide +kernel

/-- Document of `TransHTTPSessionXRequestedFor` (ramrod/test/cybox/cybox_2_0_1_test.py:644-669). -/
def c201_TransHTTPSessionXRequestedFor : Node :=
  el nu_cybox "Observables" [at_ "cybox_major_version" "2", at_ "cybox_minor_version" "0", at_ "cybox_update_version" "1"] [
    el nu_cybox "Observable" [at_ "id" "example:Observable-1c9af310-0d5a-4c44-bdd7-aea3d99f13b9"] [
      el nu_cybox "Object" [at_ "id" "example:Object-26be6630-b2df-4bf9-8750-3f45ca9e19d3"] [
        el nu_cybox "Properties" [xsiType "HTTPSessionObj:HTTPSessionObjectType"] [
          el nu_objHTTPSession "HTTP_Request_Response" [] [
            el nu_objHTTPSession "HTTP_Server_Response" [] [
              el nu_objHTTPSession "HTTP_Response_Header" [] [
                el nu_objHTTPSession "Parsed_Header" [] [
                  el nu_objHTTPSession "X_Requested_For" [] [] (some "TEST! TEST! TEST!")]]]]]]]] none decls_c201_3

-- `test_trans_find`, `test_trans` (ramrod/test/cybox/cybox_2_0_1_test.py:644-669).
example : (c201_TransHTTPSessionXRequestedFor.xpath transXRequestedFor.nsmap transXRequestedFor.xpath).length = 1 := by decide +kernel
example : (transXRequestedFor.translate c201_TransHTTPSessionXRequestedFor).toOption.map
      (textsAt [(false, ⟨some nu_objHTTPSession, "X_Forwarded_For"⟩)]) =
    some [some "TEST! TEST! TEST!"] := by decide +kernel

/-- Document of `TransHTTPSessionRefresh` (ramrod/test/cybox/cybox_2_0_1_test.py:672-707). -/
def c201_TransHTTPSessionRefresh : Node :=
  el nu_cybox "Observables" [at_ "cybox_major_version" "2", at_ "cybox_minor_version" "0", at_ "cybox_update_version" "1"] [
    el nu_cybox "Observable" [at_ "id" "example:Observable-1c9af310-0d5a-4c44-bdd7-aea3d99f13b9"] [
      el nu_cybox "Object" [at_ "id" "example:Object-26be6630-b2df-4bf9-8750-3f45ca9e19d3"] [
        el nu_cybox "Properties" [xsiType "HTTPSessionObj:HTTPSessionObjectType"] [
          el nu_objHTTPSession "HTTP_Request_Response" [] [
            el nu_objHTTPSession "HTTP_Server_Response" [] [
              el nu_objHTTPSession "HTTP_Response_Header" [] [
                el nu_objHTTPSession "Parsed_Header" [] [
                  el nu_objHTTPSession "Refresh" [at_ "datatype" "int"] [] (some "TEST! TEST! TEST!")]]]]]]]] none decls_c201_3

-- `test_trans_find`, `test_trans` (ramrod/test/cybox/cybox_2_0_1_test.py:672-707).
example : (c201_TransHTTPSessionRefresh.xpath transRefresh.nsmap transRefresh.xpath).length = 1 := by decide +kernel
example : (transRefresh.translate c201_TransHTTPSessionRefresh).toOption.map
      (textsAt [(false, ⟨some nu_objHTTPSession, "Refresh"⟩)]) =
    some [some "TEST! TEST! TEST!"] := by decide +kernel

-- `test_attrib_value` (ramrod/test/cybox/cybox_2_0_1_test.py:672-707).
example : (transRefresh.translate c201_TransHTTPSessionRefresh).toOption.map
      (fun t => ((t.elems.filter (fun c => Leads [(false, ⟨some nu_objHTTPSession, "Refresh"⟩)] (c.e.tag :: c.anc))).map
        (fun c => c.e.get? (.plain "datatype")))) = some [some "string"] := by decide +kernel

/-- Document of `TransNetPacketProtoAddrSize` (ramrod/test/cybox/cybox_2_0_1_test.py:710-733). -/
def c201_TransNetPacketProtoAddrSize : Node :=
  el nu_cybox "Observables" [at_ "cybox_major_version" "2", at_ "cybox_minor_version" "0", at_ "cybox_update_version" "1"] [
    el nu_cybox "Observable" [] [
      el nu_cybox "Description" [] [] (some "Test Network Packet Object translations"),
      el nu_cybox "Object" [] [
        el nu_cybox "Properties" [xsiType "PacketObj:NetworkPacketObjectType"] [
          el nu_objPacket "Link_Layer" [] [
            el nu_objPacket "Logical_Protocols" [] [
              el nu_objPacket "ARP_RARP" [] [
                el nu_objPacket "Protol_Addr_Size" [] [] (some "TEST! TEST! TEST!")]]]]]]] none decls_c201_3

-- `test_trans_find`, `test_trans` (ramrod/test/cybox/cybox_2_0_1_test.py:710-733).  The path of this test selects nothing in the result, so
-- the test says nothing about the text.
example : (c201_TransNetPacketProtoAddrSize.xpath transProtoAddrSize.nsmap transProtoAddrSize.xpath).length = 1 := by decide +kernel
example : (transProtoAddrSize.translate c201_TransNetPacketProtoAddrSize).toOption.map
      (textsAt [(false, ⟨some nu_objHTTPSession, "Proto_Addr_Size"⟩)]) =
    some [] := by decide +kernel

/-- Document of `TransNetPacketEncapsulatingSecurityPayload` (ramrod/test/cybox/cybox_2_0_1_test.py:736-762). -/
def c201_TransNetPacketEncapsulatingSecurityPayload : Node :=
  el nu_cybox "Observables" [at_ "cybox_major_version" "2", at_ "cybox_minor_version" "0", at_ "cybox_update_version" "1"] [
    el nu_cybox "Observable" [] [
      el nu_cybox "Description" [] [] (some "Test Network Packet Object translations"),
      el nu_cybox "Object" [] [
        el nu_cybox "Properties" [xsiType "PacketObj:NetworkPacketObjectType"] [
          el nu_objPacket "Internet_Layer" [] [
            el nu_objPacket "IPv6" [] [
              el nu_objPacket "Ext_Headers" [] [
                .other " This should get renamed to Encapsulating_Security_Payload " none,
                el nu_objPacket "Excapsulating_Security_Payload" [] [
                  el nu_objPacket "Sequence_Number" [] [] (some "1")]]]]]]]] none decls_c201_3

-- `test_trans_find`, `test_trans` (ramrod/test/cybox/cybox_2_0_1_test.py:736-762).
example : (c201_TransNetPacketEncapsulatingSecurityPayload.xpath transEncapsulating.nsmap transEncapsulating.xpath).length = 1 := by decide +kernel
example : (transEncapsulating.translate c201_TransNetPacketEncapsulatingSecurityPayload).toOption.map
      (textsAt [(false, ⟨some nu_objPacket, "Encapsulating_Security_Payload"⟩)]) =
    some [none] := by decide +kernel

/-- Document of `TransNetPacketAuthenticationData` (ramrod/test/cybox/cybox_2_0_1_test.py:766-794). -/
def c201_TransNetPacketAuthenticationData : Node :=
  el nu_cybox "Observables" [at_ "cybox_major_version" "2", at_ "cybox_minor_version" "0", at_ "cybox_update_version" "1"] [
    el nu_cybox "Observable" [] [
      el nu_cybox "Description" [] [] (some "Test Network Packet Object translations"),
      el nu_cybox "Object" [] [
        el nu_cybox "Properties" [xsiType "PacketObj:NetworkPacketObjectType"] [
          el nu_objPacket "Internet_Layer" [] [
            el nu_objPacket "IPv6" [] [
              el nu_objPacket "Ext_Headers" [] [
                .other " This should get renamed to Encapsulating_Security_Payload " none,
                el nu_objPacket "Excapsulating_Security_Payload" [] [
                  el nu_objPacket "Sequence_Number" [] [] (some "1"),
                  .other " This should get renamed to Authentication_Data " none,
                  el nu_objPacket "Authenication_Data" [] [] (some "TEST! TEST! TEST!")]]]]]]]] none decls_c201_3

-- `test_trans_find`, `test_trans` (ramrod/test/cybox/cybox_2_0_1_test.py:766-794).
example : (c201_TransNetPacketAuthenticationData.xpath transAuthData.nsmap transAuthData.xpath).length = 1 := by decide +kernel
example : (transAuthData.translate c201_TransNetPacketAuthenticationData).toOption.map
      (textsAt [(false, ⟨some nu_objPacket, "Authentication_Data"⟩)]) =
    some [some "TEST! TEST! TEST!"] := by decide +kernel

/-- Document of `TransWinMailslotHandle` (ramrod/test/cybox/cybox_2_0_1_test.py:797-818). -/
def c201_TransWinMailslotHandle : Node :=
  el nu_cybox "Observables" [at_ "cybox_major_version" "2", at_ "cybox_minor_version" "0", at_ "cybox_update_version" "1"] [
    el nu_cybox "Observable" [at_ "id" "example:Observable-1c9af310-0d5a-4c44-bdd7-aea3d99f13b8"] [
      el nu_cybox "Object" [at_ "id" "example:Object-26be6630-b2df-4bf9-8750-3f45ca9e19d0"] [
        el nu_cybox "Properties" [xsiType "WinMailslotObj:WindowsMailslotObjectType"] [
          el nu_objWinMailslot "Handle" [] [
            el nu_objWinHandle "Handle" [] [
              el nu_objWinHandle "Name" [] [] (some "TEST! TEST! TEST!")]],
          el nu_objWinMailslot "Name" [] [] (some "TEST NAME")]]]] none decls_c201_3

-- `test_trans_find`, `test_trans` (ramrod/test/cybox/cybox_2_0_1_test.py:797-818).  The path of this test selects nothing in the result, so
-- the test says nothing about the text.
example : (c201_TransWinMailslotHandle.xpath transMailslot.nsmap transMailslot.xpath).length = 1 := by decide +kernel
example : (transMailslot.translate c201_TransWinMailslotHandle).toOption.map
      (textsAt [(true, ⟨some nu_objWinMailslot, "Name"⟩), (false, ⟨some nu_objWinMailslot, "Handle"⟩)]) =
    some [] := by decide +kernel

/-- Document of `DisallowedTaskTriggerType` (ramrod/test/cybox/cybox_2_0_1_test.py:821-850). -/
def c201_DisallowedTaskTriggerType : Node :=
  el nu_cybox "Observables" [at_ "cybox_major_version" "2", at_ "cybox_minor_version" "0", at_ "cybox_update_version" "1"] [
    el nu_cybox "Observable" [] [
      el nu_cybox "Object" [] [
        el nu_cybox "Properties" [xsiType "WinTaskObj:WindowsTaskObjectType"] [
          el nu_objWinTask "Trigger_List" [] [
            el nu_objWinTask "Trigger" [] [
              el nu_objWinTask "Trigger_Type" [] []]]]]],
    el nu_cybox "Observable" [] [
      el nu_cybox "Object" [] [
        el nu_cybox "Properties" [xsiType "WinTaskObj:WindowsTaskObjectType"] [
          el nu_objWinTask "Trigger_List" [] [
            el nu_objWinTask "Trigger" [] [
              el nu_objWinTask "Trigger_Type" [] []]]]]]] none decls_c201_3

-- `test_disallowed_find`, `test_clean` (ramrod/test/cybox/cybox_2_0_1_test.py:821-850).
example : found c201_DisallowedTaskTriggerType disallowedTaskTriggerType = some 2 := by decide +kernel
example : (clean cybox201 ot 0 c201_DisallowedTaskTriggerType).toOption.bind (fun r => found r.1.doc disallowedTaskTriggerType) = some 0 := by decide +kernel

/-- Document of `DisallowedWinExecutableFile` (ramrod/test/cybox/cybox_2_0_1_test.py:853-876). -/
def c201_DisallowedWinExecutableFile : Node :=
  el nu_cybox "Observables" [at_ "cybox_major_version" "2", at_ "cybox_minor_version" "0", at_ "cybox_update_version" "1"] [
    el nu_cybox "Observable" [] [
      el nu_cybox "Object" [] [
        el nu_cybox "Properties" [xsiType "WinExecutableFileObj:WindowsExecutableFileObjectType"] [
          el nu_objFile "File_Name" [] [] (some "Hax.exe"),
          el nu_objWinExecutableFile "Sections" [] [
            el nu_objWinExecutableFile "Section" [] [
              el nu_objWinExecutableFile "Entropy" [] [
                el nu_objWinExecutableFile "Value" [] [] (some "1.0")],
              el nu_objWinExecutableFile "Type" [] [] (some "THIS REQUIRES FORCED UPDATES")]],
          el nu_objWinExecutableFile "Type" [] [] (some "Invalid")]]]] none decls_c201_3

-- `test_disallowed_find`, `test_clean` (ramrod/test/cybox/cybox_2_0_1_test.py:853-876).
example : found c201_DisallowedWinExecutableFile disallowedWinExecutableFile = some 1 := by decide +kernel
example : (clean cybox201 ot 0 c201_DisallowedWinExecutableFile).toOption.bind (fun r => found r.1.doc disallowedWinExecutableFile) = some 0 := by decide +kernel

/-- Document of `DisallowedHTTPSession` (ramrod/test/cybox/cybox_2_0_1_test.py:879-901). -/
def c201_DisallowedHTTPSession : Node :=
  el nu_cybox "Observables" [at_ "cybox_major_version" "2", at_ "cybox_minor_version" "0", at_ "cybox_update_version" "1"] [
    el nu_cybox "Observable" [at_ "id" "example:Observable-1c9af310-0d5a-4c44-bdd7-aea3d99f13b9"] [
      el nu_cybox "Object" [at_ "id" "example:Object-26be6630-b2df-4bf9-8750-3f45ca9e19d3"] [
        el nu_cybox "Properties" [xsiType "HTTPSessionObj:HTTPSessionObjectType"] [
          el nu_objHTTPSession "HTTP_Request_Response" [] [
            el nu_objHTTPSession "HTTP_Server_Response" [] [
              el nu_objHTTPSession "HTTP_Response_Header" [] [
                el nu_objHTTPSession "Parsed_Header" [] [
                  el nu_objHTTPSession "X_Forwarded_Proto" [] []]]]]]]]] none decls_c201_3

-- `test_disallowed_find`, `test_clean` (ramrod/test/cybox/cybox_2_0_1_test.py:879-901).
example : found c201_DisallowedHTTPSession disallowedHTTPSession = some 1 := by decide +kernel
example : (clean cybox201 ot 0 c201_DisallowedHTTPSession).toOption.bind (fun r => found r.1.doc disallowedHTTPSession) = some 0 := by decide +kernel

/-- Document of `DisallowedWinMailslot` (ramrod/test/cybox/cybox_2_0_1_test.py:904-926). -/
def c201_DisallowedWinMailslot : Node :=
  el nu_cybox "Observables" [at_ "cybox_major_version" "2", at_ "cybox_minor_version" "0", at_ "cybox_update_version" "1"] [
    el nu_cybox "Observable" [at_ "id" "example:Observable-1c9af310-0d5a-4c44-bdd7-aea3d99f13b8"] [
      el nu_cybox "Object" [at_ "id" "example:Object-26be6630-b2df-4bf9-8750-3f45ca9e19d0"] [
        el nu_cybox "Properties" [xsiType "WinMailslotObj:WindowsMailslotObjectType"] [
          el nu_objWinMailslot "Handle" [] [
            el nu_objWinHandle "Handle" [] [
              el nu_objWinHandle "Name" [] [] (some "Test")],
            el nu_objWinHandle "Handle" [] [
              el nu_objWinHandle "Name" [] [] (some "Test")]],
          el nu_objWinMailslot "Name" [] [] (some "TEST NAME")]]]] none decls_c201_3

-- `test_disallowed_find`, `test_clean` (ramrod/test/cybox/cybox_2_0_1_test.py:904-926).
example : found c201_DisallowedWinMailslot disallowedMailslotHandle = some 1 := by decide +kernel
example : (clean cybox201 ot 0 c201_DisallowedWinMailslot).toOption.bind (fun r => found r.1.doc disallowedMailslotHandle) = some 0 := by decide +kernel

/-- Document of `ObjectRelationshipVocab` (ramrod/test/cybox/cybox_2_0_1_test.py:929-945). -/
def c201_ObjectRelationshipVocab : Node :=
  el nu_cybox "Observables" [at_ "cybox_major_version" "2", at_ "cybox_minor_version" "0", at_ "cybox_update_version" "1"] [
    el nu_cybox "Observable" [] [
      el nu_cybox "Object" [] [
        el nu_cybox "Related_Objects" [] [
          el nu_cybox "Related_Object" [] [
            el nu_cybox "Relationship" [xsiType "cyboxVocabs:ObjectRelationshipVocab-1.0"] [] (some "Allocated")]]]]] none decls_c201_3

-- `test_find`, `test_vocab_update` (ramrod/test/cybox/cybox_2_0_1_test.py:929-945).
example : foundVocab objectRelationshipVocab c201_ObjectRelationshipVocab = some 1 := by decide +kernel
example : (objectRelationshipVocab.update c201_ObjectRelationshipVocab).toOption.bind (foundVocab objectRelationshipVocab) = some 0 := by decide +kernel

/-- Document of `ToolTypeVocab` (ramrod/test/cybox/cybox_2_0_1_test.py:948-960). -/
def c201_ToolTypeVocab : Node :=
  el nu_cybox "Observables" [at_ "cybox_major_version" "2", at_ "cybox_minor_version" "0", at_ "cybox_update_version" "1"] [
    el nu_cybox "Observable" [] [
      el nu_cybox "Observable_Source" [] [
        el nu_cyboxCommon "Tool_Type" [xsiType "cyboxVocabs:ToolTypeVocab-1.0"] [] (some "A/V")]]] none decls_c201_3

-- `test_find`, `test_vocab_update` (ramrod/test/cybox/cybox_2_0_1_test.py:948-960).
example : foundVocab toolTypeVocab c201_ToolTypeVocab = some 1 := by decide +kernel
example : (toolTypeVocab.update c201_ToolTypeVocab).toOption.bind (foundVocab toolTypeVocab) = some 0 := by decide +kernel

/-- Document of `ActionNameVocab` (ramrod/test/cybox/cybox_2_0_1_test.py:963-979). -/
def c201_ActionNameVocab : Node :=
  el nu_cybox "Observables" [at_ "cybox_major_version" "2", at_ "cybox_minor_version" "0", at_ "cybox_update_version" "1"] [
    el nu_cybox "Observable" [] [
      el nu_cybox "Event" [] [
        el nu_cybox "Actions" [] [
          el nu_cybox "Action" [] [
            el nu_cybox "Name" [xsiType "cyboxVocabs:ActionNameVocab-1.0"] [] (some "Accept Socket Connection")]]]]] none decls_c201_3

-- `test_find`, `test_vocab_update` (ramrod/test/cybox/cybox_2_0_1_test.py:963-979).
example : foundVocab actionNameVocab c201_ActionNameVocab = some 1 := by decide +kernel
example : (actionNameVocab.update c201_ActionNameVocab).toOption.bind (foundVocab actionNameVocab) = some 0 := by decide +kernel

/-! ## ramrod/test/stix/stix_1_0_test.py -/

/-- Document of `STIX_1_0_Test` (ramrod/test/stix/stix_1_0_test.py:33-54). -/
def s10_STIX_1_0_Test : Node :=
  el nu_stix "STIX_Package" [at_ "version" "1.0"] [] none decls_s10_4

-- `test_get_version`, `test_update_version` (ramrod/test/stix/stix_1_0_test.py:33-54).
example : stixRootVersion s10_STIX_1_0_Test = some "1.0" := by decide +kernel
example : (update wt s10_STIX_1_0_Test none (some "1.0.1") ot false 0).toOption.bind (fun r => stixRootVersion r.1.doc) = some "1.0.1" := by
  decide +kernel
example : (update wt s10_STIX_1_0_Test none (some "1.1") ot false 0).toOption.bind (fun r => stixRootVersion r.1.doc) = some "1.1" := by
  decide +kernel
example : (update wt s10_STIX_1_0_Test none (some "1.1.1") ot false 0).toOption.bind (fun r => stixRootVersion r.1.doc) = some "1.1.1" := by
  decide +kernel
example : (update wt s10_STIX_1_0_Test none (some "1.2") ot false 0).toOption.bind (fun r => stixRootVersion r.1.doc) = some "1.2" := by
  decide +kernel
example : (update wt s10_STIX_1_0_Test none (some "1.2.1") ot false 0).toOption.bind (fun r => stixRootVersion r.1.doc) = some "1.2.1" := by
  decide +kernel

/-- Document of `MotivationVocab` (ramrod/test/stix/stix_1_0_test.py:56-68). -/
def s10_MotivationVocab : Node :=
  el nu_stix "STIX_Package" [at_ "version" "1.0"] [
    el nu_stix "Indicators" [] [
      el nu_stix "Indicator" [xsiType "indicator:IndicatorType", at_ "version" "2.0"] [
        el nu_indicator "Type" [xsiType "stixVocabs:MotivationVocab-1.0"] [] (some "Ideological - Anti-Establisment")]]] none decls_s10_4

-- `test_find`, `test_vocab_update` (ramrod/test/stix/stix_1_0_test.py:56-68).
example : foundVocab motivationVocab10 s10_MotivationVocab = some 1 := by decide +kernel
example : (motivationVocab10.update s10_MotivationVocab).toOption.bind (foundVocab motivationVocab10) = some 0 := by decide +kernel

/-- Document of `POSVocab` (ramrod/test/stix/stix_1_0_test.py:71-83). -/
def s10_POSVocab : Node :=
  el nu_stix "STIX_Package" [at_ "version" "1.0"] [
    el nu_stix "Indicators" [] [
      el nu_stix "Indicator" [xsiType "indicator:IndicatorType", at_ "version" "2.0"] [
        el nu_indicator "Type" [xsiType "stixVocabs:PlanningAndOperationalSupportVocab-1.0"] [] (some "Planning ")]]] none decls_s10_4

-- `test_find`, `test_vocab_update` (ramrod/test/stix/stix_1_0_test.py:71-83).
example : foundVocab planningVocab s10_POSVocab = some 1 := by decide +kernel
example : (planningVocab.update s10_POSVocab).toOption.bind (foundVocab planningVocab) = some 0 := by decide +kernel

/-- Document of `DisallowedMAEC` (ramrod/test/stix/stix_1_0_test.py:85-103). -/
def s10_DisallowedMAEC : Node :=
  el nu_stix "STIX_Package" [at_ "version" "1.0"] [
    el nu_stix "TTPs" [] [
      el nu_stix "TTP" [xsiType "ttp:TTPType"] [
        el nu_ttp "Behavior" [] [
          el nu_ttp "Malware" [] [
            el nu_ttp "Malware_Instance" [xsiType "stix-maec:MAEC4.0InstanceType"] [
              el nu_maec "MAEC" [] []]]]]]] none decls_s10_4

-- `test_disallowed_find`, `test_clean` (ramrod/test/stix/stix_1_0_test.py:85-103).
example : (stix10Disallowed[1]?).bind (found s10_DisallowedMAEC) = some 1 := by decide +kernel
example : (clean stix10 ot 0 s10_DisallowedMAEC).toOption.bind (fun r => (stix10Disallowed[1]?).bind (found r.1.doc)) = some 0 := by decide +kernel

/-- Document of `DisallowedMalware` (ramrod/test/stix/stix_1_0_test.py:106-124). -/
def s10_DisallowedMalware : Node :=
  el nu_stix "STIX_Package" [at_ "version" "1.0"] [
    el nu_stix "TTPs" [] [
      el nu_stix "TTP" [xsiType "ttp:TTPType"] [
        el nu_ttp "Behavior" [] [
          el nu_ttp "Malware" [] [
            el nu_ttp "Malware_Instance" [xsiType "stix-maec:MAEC4.0InstanceType"] [
              el nu_maec "MAEC" [] []]]]]]] none decls_s10_4

-- `test_disallowed_find`, `test_clean` (ramrod/test/stix/stix_1_0_test.py:106-124).
example : (stix10Disallowed[2]?).bind (found s10_DisallowedMalware) = some 1 := by decide +kernel
example : (clean stix10 ot 0 s10_DisallowedMalware).toOption.bind (fun r => (stix10Disallowed[2]?).bind (found r.1.doc)) = some 0 := by decide +kernel

/-- Document of `DisallowedCAPEC` (ramrod/test/stix/stix_1_0_test.py:126-144). -/
def s10_DisallowedCAPEC : Node :=
  el nu_stix "STIX_Package" [at_ "version" "1.0"] [
    el nu_stix "TTPs" [] [
      el nu_stix "TTP" [xsiType "ttp:TTPType"] [
        el nu_ttp "Behavior" [] [
          el nu_ttp "Attack_Patterns" [] [
            el nu_ttp "Attack_Pattern" [xsiType "stix-capec:CAPEC2.5InstanceType"] [
              el nu_capec25 "CAPEC" [at_ "Name" "This cannot be translated", at_ "Status" "Draft"] []]]]]]] none decls_s10_4

-- `test_disallowed_find`, `test_clean` (ramrod/test/stix/stix_1_0_test.py:126-144).
example : (stix10Disallowed[0]?).bind (found s10_DisallowedCAPEC) = some 1 := by decide +kernel
example : (clean stix10 ot 0 s10_DisallowedCAPEC).toOption.bind (fun r => (stix10Disallowed[0]?).bind (found r.1.doc)) = some 0 := by decide +kernel

/-- Document of `DisallowedAttackPatterns` (ramrod/test/stix/stix_1_0_test.py:147-165). -/
def s10_DisallowedAttackPatterns : Node :=
  el nu_stix "STIX_Package" [at_ "version" "1.0"] [
    el nu_stix "TTPs" [] [
      el nu_stix "TTP" [xsiType "ttp:TTPType"] [
        el nu_ttp "Behavior" [] [
          el nu_ttp "Attack_Patterns" [] [
            el nu_ttp "Attack_Pattern" [xsiType "stix-capec:CAPEC2.5InstanceType"] [
              el nu_capec25 "CAPEC" [at_ "Name" "This cannot be translated", at_ "Status" "Draft"] []]]]]]] none decls_s10_4

-- `test_disallowed_find`, `test_clean` (ramrod/test/stix/stix_1_0_test.py:147-165).
example : (stix10Disallowed[3]?).bind (found s10_DisallowedAttackPatterns) = some 1 := by decide +kernel
example : (clean stix10 ot 0 s10_DisallowedAttackPatterns).toOption.bind (fun r => (stix10Disallowed[3]?).bind (found r.1.doc)) = some 0 := by decide +kernel

/-! ## ramrod/test/stix/stix_1_0_1_test.py -/

/-- Document of `STIX_1_0_1_Test` (ramrod/test/stix/stix_1_0_1_test.py:36-57). -/
def s101_STIX_1_0_1_Test : Node :=
  el nu_stix "STIX_Package" [at_ "version" "1.0.1"] [] none decls_s101_5

-- `test_get_version`, `test_update_version` (ramrod/test/stix/stix_1_0_1_test.py:36-57).
example : stixRootVersion s101_STIX_1_0_1_Test = some "1.0.1" := by decide +kernel
example : (update wt s101_STIX_1_0_1_Test none (some "1.1") ot false 0).toOption.bind (fun r => stixRootVersion r.1.doc) = some "1.1" := by
  decide +kernel
example : (update wt s101_STIX_1_0_1_Test none (some "1.1.1") ot false 0).toOption.bind (fun r => stixRootVersion r.1.doc) = some "1.1.1" := by
  decide +kernel
example : (update wt s101_STIX_1_0_1_Test none (some "1.2") ot false 0).toOption.bind (fun r => stixRootVersion r.1.doc) = some "1.2" := by
  decide +kernel
example : (update wt s101_STIX_1_0_1_Test none (some "1.2.1") ot false 0).toOption.bind (fun r => stixRootVersion r.1.doc) = some "1.2.1" := by
  decide +kernel

/-- Document of `IndicatorTypeVocab` (ramrod/test/stix/stix_1_0_1_test.py:60-72). -/
def s101_IndicatorTypeVocab : Node :=
  el nu_stix "STIX_Package" [at_ "version" "1.0.1"] [
    el nu_stix "Indicators" [] [
      el nu_stix "Indicator" [xsiType "indicator:IndicatorType"] [
        el nu_indicator "Type" [xsiType "stixVocabs:IndicatorTypeVocab-1.0"] [] (some "C2")]]] none decls_s101_5

-- `test_find`, `test_vocab_update` (ramrod/test/stix/stix_1_0_1_test.py:60-72).
example : foundVocab indicatorTypeVocab s101_IndicatorTypeVocab = some 1 := by decide +kernel
example : (indicatorTypeVocab.update s101_IndicatorTypeVocab).toOption.bind (foundVocab indicatorTypeVocab) = some 0 := by decide +kernel

/-- Document of `MotivationVocab` (ramrod/test/stix/stix_1_0_1_test.py:74-86). -/
def s101_MotivationVocab : Node :=
  el nu_stix "STIX_Package" [at_ "version" "1.0.1"] [
    el nu_stix "Indicators" [] [
      el nu_stix "Indicator" [xsiType "indicator:IndicatorType"] [
        el nu_indicator "Type" [xsiType "stixVocabs:MotivationVocab-1.0.1"] [] (some "Policital")]]] none decls_s101_5

-- `test_find`, `test_vocab_update` (ramrod/test/stix/stix_1_0_1_test.py:74-86).
example : foundVocab motivationVocab101 s101_MotivationVocab = some 1 := by decide +kernel
example : (motivationVocab101.update s101_MotivationVocab).toOption.bind (foundVocab motivationVocab101) = some 0 := by decide +kernel

/-- Document of `DisallowedMAEC` (ramrod/test/stix/stix_1_0_1_test.py:89-107). -/
def s101_DisallowedMAEC : Node :=
  el nu_stix "STIX_Package" [at_ "version" "1.0.1"] [
    el nu_stix "TTPs" [] [
      el nu_stix "TTP" [xsiType "ttp:TTPType"] [
        el nu_ttp "Behavior" [] [
          el nu_ttp "Malware" [] [
            el nu_ttp "Malware_Instance" [xsiType "stix-maec:MAEC4.0InstanceType"] [
              el nu_maec "MAEC" [] []]]]]]] none decls_s101_5

-- `test_disallowed_find`, `test_clean` (ramrod/test/stix/stix_1_0_1_test.py:89-107).
example : ((stix101Disallowed wt)[0]?).bind (found s101_DisallowedMAEC) = some 1 := by decide +kernel
example : (clean (stix101 wt) ot 0 s101_DisallowedMAEC).toOption.bind (fun r => ((stix101Disallowed wt)[0]?).bind (found r.1.doc)) = some 0 := by decide +kernel

/-- Document of `DisallowedMalware` (ramrod/test/stix/stix_1_0_1_test.py:110-128). -/
def s101_DisallowedMalware : Node :=
  el nu_stix "STIX_Package" [at_ "version" "1.0.1"] [
    el nu_stix "TTPs" [] [
      el nu_stix "TTP" [xsiType "ttp:TTPType"] [
        el nu_ttp "Behavior" [] [
          el nu_ttp "Malware" [] [
            el nu_ttp "Malware_Instance" [xsiType "stix-maec:MAEC4.0InstanceType"] [
              el nu_maec "MAEC" [] []]]]]]] none decls_s101_5

-- `test_disallowed_find`, `test_clean` (ramrod/test/stix/stix_1_0_1_test.py:110-128).
example : ((stix101Disallowed wt)[3]?).bind (found s101_DisallowedMalware) = some 1 := by decide +kernel
example : (clean (stix101 wt) ot 0 s101_DisallowedMalware).toOption.bind (fun r => ((stix101Disallowed wt)[3]?).bind (found r.1.doc)) = some 0 := by decide +kernel

/-- Document of `DisallowedCAPEC` (ramrod/test/stix/stix_1_0_1_test.py:130-148). -/
def s101_DisallowedCAPEC : Node :=
  el nu_stix "STIX_Package" [at_ "version" "1.0.1"] [
    el nu_stix "TTPs" [] [
      el nu_stix "TTP" [xsiType "ttp:TTPType"] [
        el nu_ttp "Behavior" [] [
          el nu_ttp "Attack_Patterns" [] [
            el nu_ttp "Attack_Pattern" [xsiType "stix-capec:CAPEC2.6InstanceType"] [
              el nu_capec26 "CAPEC" [at_ "Name" "This cannot be translated", at_ "Status" "Draft"] []]]]]]] none decls_s101_5

-- `test_disallowed_find`, `test_clean` (ramrod/test/stix/stix_1_0_1_test.py:130-148).
example : ((stix101Disallowed wt)[1]?).bind (found s101_DisallowedCAPEC) = some 1 := by decide +kernel
example : (clean (stix101 wt) ot 0 s101_DisallowedCAPEC).toOption.bind (fun r => ((stix101Disallowed wt)[1]?).bind (found r.1.doc)) = some 0 := by decide +kernel

/-- Document of `DisallowedAttackPatterns` (ramrod/test/stix/stix_1_0_1_test.py:151-169). -/
def s101_DisallowedAttackPatterns : Node :=
  el nu_stix "STIX_Package" [at_ "version" "1.0.1"] [
    el nu_stix "TTPs" [] [
      el nu_stix "TTP" [xsiType "ttp:TTPType"] [
        el nu_ttp "Behavior" [] [
          el nu_ttp "Attack_Patterns" [] [
            el nu_ttp "Attack_Pattern" [xsiType "stix-capec:CAPEC2.6InstanceType"] [
              el nu_capec26 "CAPEC" [at_ "Name" "This cannot be translated", at_ "Status" "Draft"] []]]]]]] none decls_s101_5

-- `test_disallowed_find`, `test_clean` (ramrod/test/stix/stix_1_0_1_test.py:151-169).
example : ((stix101Disallowed wt)[4]?).bind (found s101_DisallowedAttackPatterns) = some 1 := by decide +kernel
example : (clean (stix101 wt) ot 0 s101_DisallowedAttackPatterns).toOption.bind (fun r => ((stix101Disallowed wt)[4]?).bind (found r.1.doc)) = some 0 := by decide +kernel

/-- Document of `DisallowedDateTime` (ramrod/test/stix/stix_1_0_1_test.py:172-192). -/
def s101_DisallowedDateTime : Node :=
  el nu_stix "STIX_Package" [at_ "version" "1.0.1"] [
    el nu_stix "Campaigns" [] [
      el nu_stix "Campaign" [xsiType "campaign:CampaignType"] [
        el nu_campaign "Activity" [xsiType "ramrod:NOT_A_REAL_CONCRETE_IMPL_ActivityType"] [
          el nu_stixCommon "Date_Time" [] [] (some "2002-05-30T09:30:10+06:00")],
        el nu_campaign "Activity" [xsiType "ramrod:NOT_A_REAL_CONCRETE_IMPL_ActivityType"] [
          el nu_stixCommon "Date_Time" [] [] (some "THIS CANNOT BE TRANSLATED")],
        el nu_campaign "Activity" [xsiType "ramrod:NOT_A_REAL_CONCRETE_IMPL_ActivityType"] [
          el nu_stixCommon "Date_Time" [] [] (some "THIS CANNOT BE TRANSLATED")]]]] none decls_s101_5

-- `test_disallowed_find`, `test_clean` (ramrod/test/stix/stix_1_0_1_test.py:172-192).
example : ((stix101Disallowed wt)[2]?).bind (found s101_DisallowedDateTime) = some 2 := by decide +kernel
example : (clean (stix101 wt) ot 0 s101_DisallowedDateTime).toOption.bind (fun r => ((stix101Disallowed wt)[2]?).bind (found r.1.doc)) = some 0 := by decide +kernel

/-- Document of `TransCommonContributors` (ramrod/test/stix/stix_1_0_1_test.py:195-214). -/
def s101_TransCommonContributors : Node :=
  el nu_stix "STIX_Package" [at_ "version" "1.0.1"] [
    el nu_stix "Information_Source" [] [
      el nu_stixCommon "Contributors" [] [
        el nu_stixCommon "Contributor" [] [
          el nu_stixCommon "Name" [] [] (some "TEST! TEST! TEST!")],
        el nu_stixCommon "Contributor" [] [
          el nu_stixCommon "Name" [] [] (some "TEST! TEST! TEST!")]]]] none decls_s101_5

-- `test_trans_find`, `test_trans` (ramrod/test/stix/stix_1_0_1_test.py:195-214).  The path of this test selects nothing in the result, so
-- the test says nothing about the text.
example : (s101_TransCommonContributors.xpath transContributors.nsmap transContributors.xpath).length = 1 := by decide +kernel
example : (transContributors.translate s101_TransCommonContributors).toOption.map
      (textsAt [(true, ⟨some nu_stixCommon, "Name"⟩), (true, ⟨some nu_stixCommon, "Identity"⟩), (false, ⟨some nu_stixCommon, "Source"⟩), (true, ⟨some nu_stixCommon, "ContributingSources"⟩), (false, ⟨some nu_stix, "Information_Source"⟩)]) =
    some [] := by decide +kernel

/-- Document of `TransTTPExploitTargets` (ramrod/test/stix/stix_1_0_1_test.py:217-241). -/
def s101_TransTTPExploitTargets : Node :=
  el nu_stix "STIX_Package" [at_ "version" "1.0.1"] [
    el nu_stix "TTPs" [] [
      el nu_stix "TTP" [xsiType "ttp:TTPType"] [
        el nu_ttp "Exploit_Targets" [] [
          el nu_stixCommon "Exploit_Target" [xsiType "et:ExploitTargetType"] [
            el nu_et "Title" [] [] (some "TEST! TEST! TEST!")],
          el nu_stixCommon "Exploit_Target" [xsiType "et:ExploitTargetType"] [
            el nu_et "Title" [] [] (some "TEST! TEST! TEST!")],
          el nu_stixCommon "Exploit_Target" [xsiType "et:ExploitTargetType"] [
            el nu_et "Title" [] [] (some "TEST! TEST! TEST!")]]]]] none decls_s101_5

-- `test_trans_find`, `test_trans` (ramrod/test/stix/stix_1_0_1_test.py:217-241).
example : (s101_TransTTPExploitTargets.xpath transExploitTargets.nsmap transExploitTargets.xpath).length = 3 := by decide +kernel
example : (transExploitTargets.translate s101_TransTTPExploitTargets).toOption.map
      (textsAt [(false, ⟨some nu_et, "Title"⟩), (false, ⟨some nu_stixCommon, "Exploit_Target"⟩), (true, ⟨some nu_ttp, "Exploit_Targets"⟩), (false, ⟨some nu_stix, "TTP"⟩)]) =
    some [some "TEST! TEST! TEST!", some "TEST! TEST! TEST!", some "TEST! TEST! TEST!"] := by decide +kernel

/-! ## ramrod/test/stix/stix_1_1_test.py -/

/-- Document of `STIX_1_1_Test` (ramrod/test/stix/stix_1_1_test.py:34-55). -/
def s11_STIX_1_1_Test : Node :=
  el nu_stix "STIX_Package" [at_ "version" "1.1"] [] none decls_s11_6

-- `test_get_version`, `test_update_version` (ramrod/test/stix/stix_1_1_test.py:34-55).
example : stixRootVersion s11_STIX_1_1_Test = some "1.1" := by decide +kernel
example : (update wt s11_STIX_1_1_Test none (some "1.1.1") ot false 0).toOption.bind (fun r => stixRootVersion r.1.doc) = some "1.1.1" := by
  decide +kernel
example : (update wt s11_STIX_1_1_Test none (some "1.2") ot false 0).toOption.bind (fun r => stixRootVersion r.1.doc) = some "1.2" := by
  decide +kernel
example : (update wt s11_STIX_1_1_Test none (some "1.2.1") ot false 0).toOption.bind (fun r => stixRootVersion r.1.doc) = some "1.2.1" := by
  decide +kernel

/-- Document of `IndicatorTypeVocab` (ramrod/test/stix/stix_1_1_test.py:58-70). -/
def s11_IndicatorTypeVocab : Node :=
  el nu_stix "STIX_Package" [at_ "version" "1.1"] [
    el nu_stix "Indicators" [] [
      el nu_stix "Indicator" [xsiType "indicator:IndicatorType"] [
        el nu_indicator "Type" [xsiType "stixVocabs:AvailabilityLossTypeVocab-1.0"] [] (some "Degredation")]]] none decls_s11_6

-- `test_find`, `test_vocab_update` (ramrod/test/stix/stix_1_1_test.py:58-70).
example : foundVocab availabilityLossVocab s11_IndicatorTypeVocab = some 1 := by decide +kernel
example : (availabilityLossVocab.update s11_IndicatorTypeVocab).toOption.bind (foundVocab availabilityLossVocab) = some 0 := by decide +kernel

/-- Document of `TransCommonSource` (ramrod/test/stix/stix_1_1_test.py:72-87). -/
def s11_TransCommonSource : Node :=
  el nu_stix "STIX_Package" [at_ "version" "1.1"] [
    el nu_stixCommon "Confidence" [] [
      el nu_stixCommon "Source" [] [] (some "TEST! TEST! TEST!")],
    el nu_stixCommon "Confidence" [] [
      el nu_stixCommon "Source" [] [] (some "TEST! TEST! TEST!")]] none decls_s11_6

-- `test_trans_find`, `test_trans` (ramrod/test/stix/stix_1_1_test.py:72-87).
example : (s11_TransCommonSource.xpath (transCommonSource wt).nsmap (transCommonSource wt).xpath).length = 2 := by decide +kernel
example : ((transCommonSource wt).translate s11_TransCommonSource).toOption.map
      (textsAt [(true, ⟨some nu_stixCommon, "Name"⟩), (true, ⟨some nu_stixCommon, "Identity"⟩), (false, ⟨some nu_stixCommon, "Source"⟩)]) =
    some [some "TEST! TEST! TEST!", some "TEST! TEST! TEST!"] := by decide +kernel

/-- Document of `TransSightingSource` (ramrod/test/stix/stix_1_1_test.py:90-105). -/
def s11_TransSightingSource : Node :=
  el nu_stix "STIX_Package" [at_ "version" "1.1"] [
    el nu_indicator "Sighting" [] [
      el nu_indicator "Source" [] [] (some "TEST! TEST! TEST!")],
    el nu_indicator "Sighting" [] [
      el nu_indicator "Source" [] [] (some "TEST! TEST! TEST!")]] none decls_s11_6

-- `test_trans_find`, `test_trans` (ramrod/test/stix/stix_1_1_test.py:90-105).
example : (s11_TransSightingSource.xpath (transSightingsSource wt).nsmap (transSightingsSource wt).xpath).length = 2 := by decide +kernel
example : ((transSightingsSource wt).translate s11_TransSightingSource).toOption.map
      (textsAt [(true, ⟨some nu_stixCommon, "Name"⟩), (true, ⟨some nu_stixCommon, "Identity"⟩), (true, ⟨some nu_indicator, "Source"⟩), (false, ⟨some nu_indicator, "Sighting"⟩)]) =
    some [some "TEST! TEST! TEST!", some "TEST! TEST! TEST!"] := by decide +kernel

/-- Document of `TransIndicatorRelatedCampaign` (ramrod/test/stix/stix_1_1_test.py:108-129). -/
def s11_TransIndicatorRelatedCampaign : Node :=
  el nu_stix "STIX_Package" [at_ "version" "1.1"] [
    el nu_indicator "Related_Campaigns" [] [
      el nu_indicator "Related_Campaign" [] [
        el nu_stixCommon "Names" [] [
          el nu_stixCommon "Name" [] [] (some "TEST! TEST! TEST!")]],
      el nu_indicator "Related_Campaign" [] [
        el nu_stixCommon "Names" [] [
          el nu_stixCommon "Name" [] [] (some "TEST! TEST! TEST!")]]]] none decls_s11_6

-- `test_trans_find`, `test_trans` (ramrod/test/stix/stix_1_1_test.py:108-129).
example : (s11_TransIndicatorRelatedCampaign.xpath transRelatedCampaign.nsmap transRelatedCampaign.xpath).length = 2 := by decide +kernel
example : (transRelatedCampaign.translate s11_TransIndicatorRelatedCampaign).toOption.map
      (textsAt [(true, ⟨some nu_stixCommon, "Name"⟩), (true, ⟨some nu_stixCommon, "Names"⟩), (true, ⟨some nu_stixCommon, "Campaign"⟩), (false, ⟨some nu_indicator, "Related_Campaign"⟩), (false, ⟨some nu_indicator, "Related_Campaigns"⟩)]) =
    some [some "TEST! TEST! TEST!", some "TEST! TEST! TEST!"] := by decide +kernel

/-! ## ramrod/test/stix/stix_1_1_1_test.py -/

/-- Document of `STIX_1_1_1_Test` (ramrod/test/stix/stix_1_1_1_test.py:34-55). -/
def s111_STIX_1_1_1_Test : Node :=
  el nu_stix "STIX_Package" [at_ "version" "1.1.1"] [] none decls_s11_6

-- `test_get_version`, `test_update_version` (ramrod/test/stix/stix_1_1_1_test.py:34-55).
example : stixRootVersion s111_STIX_1_1_1_Test = some "1.1.1" := by decide +kernel
example : (update wt s111_STIX_1_1_1_Test none (some "1.2") ot false 0).toOption.bind (fun r => stixRootVersion r.1.doc) = some "1.2" := by
  decide +kernel
example : (update wt s111_STIX_1_1_1_Test none (some "1.2.1") ot false 0).toOption.bind (fun r => stixRootVersion r.1.doc) = some "1.2.1" := by
  decide +kernel

/-- Document of `IndicatorTypeVocab` (ramrod/test/stix/stix_1_1_1_test.py:58-70). -/
def s111_IndicatorTypeVocab : Node :=
  el nu_stix "STIX_Package" [at_ "version" "1.1.1"] [
    el nu_stix "Indicators" [] [
      el nu_stix "Indicator" [xsiType "indicator:IndicatorType"] [
        el nu_indicator "Type" [xsiType "stixVocabs:DiscoveryMethodVocab-1.0"] [] (some "Fraud Detection")]]] none decls_s11_6

-- `test_find`, `test_vocab_update` (ramrod/test/stix/stix_1_1_1_test.py:58-70).
example : foundVocab discoveryMethodVocab s111_IndicatorTypeVocab = some 1 := by decide +kernel
example : (discoveryMethodVocab.update s111_IndicatorTypeVocab).toOption.bind (foundVocab discoveryMethodVocab) = some 0 := by decide +kernel

/-! ## ramrod/test/ramrod_test.py -/

/-- `STIXVersionTest.NO_VERSION_XML` (ramrod/test/ramrod_test.py:21-80). -/
def STIXVersionTest_NO_VERSION_XML : Node :=
  el nu_stix "STIX_Package" [at_ "id" "example:STIXPackage-33fe3b22-0201-47cf-85d0-97c02164528d"] [] none decls_v_7

/-- `STIXVersionTest.GOOD_VERSION_XML` (ramrod/test/ramrod_test.py:21-80). -/
def STIXVersionTest_GOOD_VERSION_XML : Node :=
  el nu_stix "STIX_Package" [at_ "id" "example:STIXPackage-33fe3b22-0201-47cf-85d0-97c02164528d", at_ "version" "42"] [] none decls_v_7

/-- `STIXVersionTest.UPGRADABLE_XML` (ramrod/test/ramrod_test.py:21-80). -/
def STIXVersionTest_UPGRADABLE_XML : Node :=
  el nu_stix "STIX_Package" [at_ "id" "example:STIXPackage-33fe3b22-0201-47cf-85d0-97c02164528d", at_ "version" "1.0"] [] none decls_v_7

-- `test_invalid_supplied_from_version`, `test_invalid_supplied_to_version`, `test_invalid_input_version`,
-- `test_no_input_version` (ramrod/test/ramrod_test.py:21-80).
example : isInvalid (update wt STIXVersionTest_UPGRADABLE_XML (some "42") none ot false 0) = true := by decide +kernel
example : isInvalid (update wt STIXVersionTest_UPGRADABLE_XML none (some "42") ot false 0) = true := by decide +kernel
example : isInvalid (update wt STIXVersionTest_GOOD_VERSION_XML none none ot false 0) = true := by decide +kernel
example : isUnknown (update wt STIXVersionTest_NO_VERSION_XML none none ot false 0) = true := by decide +kernel

/-- `CYBOXVersionTest.NO_VERSION_XML` (ramrod/test/ramrod_test.py:83-140). -/
def CYBOXVersionTest_NO_VERSION_XML : Node :=
  el nu_cybox "Observables" [at_ "id" "example:1"] [] none decls_c20_0

/-- `CYBOXVersionTest.GOOD_VERSION_XML` (ramrod/test/ramrod_test.py:83-140). -/
def CYBOXVersionTest_GOOD_VERSION_XML : Node :=
  el nu_cybox "Observables" [at_ "id" "example:1", at_ "cybox_major_version" "4", at_ "cybox_minor_version" "2"] [] none decls_c20_0

/-- `CYBOXVersionTest.UPGRADABLE_XML` (ramrod/test/ramrod_test.py:83-140). -/
def CYBOXVersionTest_UPGRADABLE_XML : Node :=
  el nu_cybox "Observables" [at_ "id" "example:1", at_ "cybox_major_version" "2", at_ "cybox_minor_version" "0"] [] none decls_c20_0

-- `test_invalid_supplied_from_version`, `test_invalid_supplied_to_version`, `test_invalid_input_version`,
-- `test_no_input_version` (ramrod/test/ramrod_test.py:83-140).
example : isInvalid (update wt CYBOXVersionTest_UPGRADABLE_XML (some "42") none ot false 0) = true := by decide +kernel
example : isInvalid (update wt CYBOXVersionTest_UPGRADABLE_XML none (some "42") ot false 0) = true := by decide +kernel
example : isInvalid (update wt CYBOXVersionTest_GOOD_VERSION_XML none none ot false 0) = true := by decide +kernel
example : isUnknown (update wt CYBOXVersionTest_NO_VERSION_XML none none ot false 0) = true := by decide +kernel

/-- `DocumentTest.STIX_PACKAGE_XML` (ramrod/test/ramrod_test.py:143-186). -/
def DocumentTest_STIX_PACKAGE_XML : Node :=
  el nu_stix "STIX_Package" [at_ "id" "example:STIXPackage-33fe3b22-0201-47cf-85d0-97c02164528d", at_ "version" "1.0"] [] none decls_v_7

/-- `DocumentTest.OBSERVABLES_XML` (ramrod/test/ramrod_test.py:143-186). -/
def DocumentTest_OBSERVABLES_XML : Node :=
  el nu_cybox "Observables" [at_ "id" "example:1", at_ "cybox_major_version" "2", at_ "cybox_minor_version" "0"] [] none decls_c20_0

/-- `DocumentTest.UNKNOWN_XML` (ramrod/test/ramrod_test.py:143-186). -/
def DocumentTest_UNKNOWN_XML : Node :=
  .elem ⟨.plain "Unknown", [], [at_ "id" "foobar-1"], none, none⟩ []

-- `test_unknown`, `test_stix_package`, `test_cybox_observables` (ramrod/test/ramrod_test.py:143-186).
example : isUpdateError (update wt DocumentTest_UNKNOWN_XML none none ot false 0) = true := by decide +kernel
example : isOk (update wt DocumentTest_STIX_PACKAGE_XML none none ot false 0) = true := by decide +kernel
example : isOk (update wt DocumentTest_OBSERVABLES_XML none none ot false 0) = true := by decide +kernel

end Ramrod.UnitTests

/-!
# Tables of the updater classes

Generated from the literals in the source text (parsed with Python's `ast`, nothing executed).
Every definition cites the lines of its literal.
-/

namespace Ramrod.Tables

/-- `Cybox_2_0_Updater.VERSION` (ramrod/cybox/cybox_2_0.py:36-36). -/
def cybox20_version : String := "2.0"

/-- `Cybox_2_0_Updater.NSMAP` (ramrod/cybox/cybox_2_0.py:38-121). -/
def cybox20_nsmap : List (String × String) :=
  [("APIObj", "http://cybox.mitre.org/objects#APIObject-2"),
   ("AccountObj", "http://cybox.mitre.org/objects#AccountObject-2"),
   ("AddressObj", "http://cybox.mitre.org/objects#AddressObject-2"),
   ("ArtifactObj", "http://cybox.mitre.org/objects#ArtifactObject-2"),
   ("CodeObj", "http://cybox.mitre.org/objects#CodeObject-2"),
   ("CustomObj", "http://cybox.mitre.org/objects#CustomObject-1"),
   ("DNSCacheObj", "http://cybox.mitre.org/objects#DNSCacheObject-2"),
   ("DNSQueryObj", "http://cybox.mitre.org/objects#DNSQueryObject-2"),
   ("DNSRecordObj", "http://cybox.mitre.org/objects#DNSRecordObject-2"),
   ("DeviceObj", "http://cybox.mitre.org/objects#DeviceObject-2"),
   ("DiskObj", "http://cybox.mitre.org/objects#DiskObject-2"),
   ("DiskPartitionObj", "http://cybox.mitre.org/objects#DiskPartitionObject-2"),
   ("EmailMessageObj", "http://cybox.mitre.org/objects#EmailMessageObject-2"),
   ("FileObj", "http://cybox.mitre.org/objects#FileObject-2"),
   ("GUIDialogBoxObj", "http://cybox.mitre.org/objects#GUIDialogboxObject-2"),
   ("GUIObj", "http://cybox.mitre.org/objects#GUIObject-2"),
   ("GUIWindowObj", "http://cybox.mitre.org/objects#GUIWindowObject-2"),
   ("HTTPSessionObj", "http://cybox.mitre.org/objects#HTTPSessionObject-2"),
   ("LibraryObj", "http://cybox.mitre.org/objects#LibraryObject-2"),
   ("LinkObj", "http://cybox.mitre.org/objects#LinkObject-1"),
   ("LinuxPackageObj", "http://cybox.mitre.org/objects#LinuxPackageObject-2"),
   ("MemoryObj", "http://cybox.mitre.org/objects#MemoryObject-2"),
   ("MutexObj", "http://cybox.mitre.org/objects#MutexObject-2"),
   ("NetFlowObj", "http://cybox.mitre.org/objects#NetworkFlowObject-2"),
   ("NetworkConnectionObj", "http://cybox.mitre.org/objects#NetworkConnectionObject-2"),
   ("NetworkRouteEntryObj", "http://cybox.mitre.org/objects#NetworkRouteEntryObject-2"),
   ("NetworkRouteObj", "http://cybox.mitre.org/objects#NetworkRouteObject-2"),
   ("NetworkSocketObj", "http://cybox.mitre.org/objects#NetworkSocketObject-2"),
   ("NetworkSubnetObj", "http://cybox.mitre.org/objects#NetworkSubnetObject-2"),
   ("PDFFileObj", "http://cybox.mitre.org/objects#PDFFileObject-1"),
   ("PacketObj", "http://cybox.mitre.org/objects#PacketObject-2"),
   ("PipeObj", "http://cybox.mitre.org/objects#PipeObject-2"),
   ("PortObj", "http://cybox.mitre.org/objects#PortObject-2"),
   ("ProcessObj", "http://cybox.mitre.org/objects#ProcessObject-2"),
   ("ProductObj", "http://cybox.mitre.org/objects#ProductObject-2"),
   ("SemaphoreObj", "http://cybox.mitre.org/objects#SemaphoreObject-2"),
   ("SocketAddressObj", "http://cybox.mitre.org/objects#SocketAddressObject-1"),
   ("SystemObj", "http://cybox.mitre.org/objects#SystemObject-2"),
   ("URIObj", "http://cybox.mitre.org/objects#URIObject-2"),
   ("UnixFileObj", "http://cybox.mitre.org/objects#UnixFileObject-2"),
   ("UnixNetworkRouteEntryObj", "http://cybox.mitre.org/objects#UnixNetworkRouteEntryObject-2"),
   ("UnixPipeObj", "http://cybox.mitre.org/objects#UnixPipeObject-2"),
   ("UnixProcessObj", "http://cybox.mitre.org/objects#UnixProcessObject-2"),
   ("UnixUserAccountObj", "http://cybox.mitre.org/objects#UnixUserAccountObject-2"),
   ("UnixVolumeObj", "http://cybox.mitre.org/objects#UnixVolumeObject-2"),
   ("UserAccountObj", "http://cybox.mitre.org/objects#UserAccountObject-2"),
   ("UserSessionObj", "http://cybox.mitre.org/objects#UserSessionObject-2"),
   ("VolumeObj", "http://cybox.mitre.org/objects#VolumeObject-2"),
   ("WhoisObj", "http://cybox.mitre.org/objects#WhoisObject-2"),
   ("WinComputerAccountObj", "http://cybox.mitre.org/objects#WinComputerAccountObject-2"),
   ("WinCriticalSectionObj", "http://cybox.mitre.org/objects#WinCriticalSectionObject-2"),
   ("WinDriverObj", "http://cybox.mitre.org/objects#WinDriverObject-2"),
   ("WinEventLogObj", "http://cybox.mitre.org/objects#WinEventLogObject-2"),
   ("WinEventObj", "http://cybox.mitre.org/objects#WinEventObject-2"),
   ("WinExecutableFileObj", "http://cybox.mitre.org/objects#WinExecutableFileObject-2"),
   ("WinFileObj", "http://cybox.mitre.org/objects#WinFileObject-2"),
   ("WinHandleObj", "http://cybox.mitre.org/objects#WinHandleObject-2"),
   ("WinKernelHookObj", "http://cybox.mitre.org/objects#WinKernelHookObject-2"),
   ("WinKernelObj", "http://cybox.mitre.org/objects#WinKernelObject-2"),
   ("WinMailslotObj", "http://cybox.mitre.org/objects#WinMailslotObject-2"),
   ("WinMemoryPageRegionObj", "http://cybox.mitre.org/objects#WinMemoryPageRegionObject-2"),
   ("WinMutexObj", "http://cybox.mitre.org/objects#WinMutexObject-2"),
   ("WinNetworkRouteEntryObj", "http://cybox.mitre.org/objects#WinNetworkRouteEntryObject-2"),
   ("WinNetworkShareObj", "http://cybox.mitre.org/objects#WinNetworkShareObject-2"),
   ("WinPipeObj", "http://cybox.mitre.org/objects#WinPipeObject-2"),
   ("WinPrefetchObj", "http://cybox.mitre.org/objects#WinPrefetchObject-2"),
   ("WinProcessObj", "http://cybox.mitre.org/objects#WinProcessObject-2"),
   ("WinRegistryKeyObj", "http://cybox.mitre.org/objects#WinRegistryKeyObject-2"),
   ("WinSemaphoreObj", "http://cybox.mitre.org/objects#WinSemaphoreObject-2"),
   ("WinServiceObj", "http://cybox.mitre.org/objects#WinServiceObject-2"),
   ("WinSystemObj", "http://cybox.mitre.org/objects#WinSystemObject-2"),
   ("WinSystemRestoreObj", "http://cybox.mitre.org/objects#WinSystemRestoreObject-2"),
   ("WinTaskObj", "http://cybox.mitre.org/objects#WinTaskObject-2"),
   ("WinThreadObj", "http://cybox.mitre.org/objects#WinThreadObject-2"),
   ("WinUserAccountObj", "http://cybox.mitre.org/objects#WinUserAccountObject-2"),
   ("WinVolumeObj", "http://cybox.mitre.org/objects#WinVolumeObject-2"),
   ("WinWaitableTimerObj", "http://cybox.mitre.org/objects#WinWaitableTimerObject-2"),
   ("X509CertificateObj", "http://cybox.mitre.org/objects#X509CertificateObject-2"),
   ("cybox", "http://cybox.mitre.org/cybox-2"),
   ("cyboxCommon", "http://cybox.mitre.org/common-2"),
   ("cyboxVocabs", "http://cybox.mitre.org/default_vocabularies-2"),
   ("cybox-cpe", "http://cybox.mitre.org/extensions/platform#CPE2.3-1")]

/-- `Cybox_2_0_Updater.UPDATE_SCHEMALOC_MAP` (ramrod/cybox/cybox_2_0.py:124-207). -/
def cybox20_schemalocMap : List (String × String) :=
  [("http://cybox.mitre.org/common-2",
     "http://cybox.mitre.org/XMLSchema/common/2.0.1/cybox_common.xsd"),
   ("http://cybox.mitre.org/cybox-2", "http://cybox.mitre.org/XMLSchema/core/2.0.1/cybox_core.xsd"),
   ("http://cybox.mitre.org/default_vocabularies-2",
     "http://cybox.mitre.org/XMLSchema/default_vocabularies/2.0.1/cybox_default_vocabularies.xsd"),
   ("http://cybox.mitre.org/extensions/platform#CPE2.3-1",
     "http://cybox.mitre.org/XMLSchema/extensions/platform/cpe2.3/1.0.1/cpe2.3.xsd"),
   ("http://cybox.mitre.org/objects#APIObject-2",
     "http://cybox.mitre.org/XMLSchema/objects/API/2.0.1/API_Object.xsd"),
   ("http://cybox.mitre.org/objects#AccountObject-2",
     "http://cybox.mitre.org/XMLSchema/objects/Account/2.0.1/Account_Object.xsd"),
   ("http://cybox.mitre.org/objects#AddressObject-2",
     "http://cybox.mitre.org/XMLSchema/objects/Address/2.0.1/Address_Object.xsd"),
   ("http://cybox.mitre.org/objects#ArtifactObject-2",
     "http://cybox.mitre.org/XMLSchema/objects/Artifact/2.0.1/Artifact_Object.xsd"),
   ("http://cybox.mitre.org/objects#CodeObject-2",
     "http://cybox.mitre.org/XMLSchema/objects/Code/2.0.1/Code_Object.xsd"),
   ("http://cybox.mitre.org/objects#CustomObject-1",
     "http://cybox.mitre.org/XMLSchema/objects/Custom/1.0.1/Custom_Object.xsd"),
   ("http://cybox.mitre.org/objects#DNSCacheObject-2",
     "http://cybox.mitre.org/XMLSchema/objects/DNS_Cache/2.0.1/DNS_Cache_Object.xsd"),
   ("http://cybox.mitre.org/objects#DNSQueryObject-2",
     "http://cybox.mitre.org/XMLSchema/objects/DNS_Query/2.0.1/DNS_Query_Object.xsd"),
   ("http://cybox.mitre.org/objects#DNSRecordObject-2",
     "http://cybox.mitre.org/XMLSchema/objects/DNS_Record/2.0.1/DNS_Record_Object.xsd"),
   ("http://cybox.mitre.org/objects#DeviceObject-2",
     "http://cybox.mitre.org/XMLSchema/objects/Device/2.0.1/Device_Object.xsd"),
   ("http://cybox.mitre.org/objects#DiskObject-2",
     "http://cybox.mitre.org/XMLSchema/objects/Disk/2.0.1/Disk_Object.xsd"),
   ("http://cybox.mitre.org/objects#DiskPartitionObject-2",
     "http://cybox.mitre.org/XMLSchema/objects/Disk_Partition/2.0.1/Disk_Partition_Object.xsd"),
   ("http://cybox.mitre.org/objects#EmailMessageObject-2",
     "http://cybox.mitre.org/XMLSchema/objects/Email_Message/2.0.1/Email_Message_Object.xsd"),
   ("http://cybox.mitre.org/objects#FileObject-2",
     "http://cybox.mitre.org/XMLSchema/objects/File/2.0.1/File_Object.xsd"),
   ("http://cybox.mitre.org/objects#GUIDialogboxObject-2",
     "http://cybox.mitre.org/XMLSchema/objects/GUI_Dialogbox/2.0.1/GUI_Dialogbox_Object.xsd"),
   ("http://cybox.mitre.org/objects#GUIObject-2",
     "http://cybox.mitre.org/XMLSchema/objects/GUI/2.0.1/GUI_Object.xsd"),
   ("http://cybox.mitre.org/objects#GUIWindowObject-2",
     "http://cybox.mitre.org/XMLSchema/objects/GUI_Window/2.0.1/GUI_Window_Object.xsd"),
   ("http://cybox.mitre.org/objects#HTTPSessionObject-2",
     "http://cybox.mitre.org/XMLSchema/objects/HTTP_Session/2.0.1/HTTP_Session_Object.xsd"),
   ("http://cybox.mitre.org/objects#LibraryObject-2",
     "http://cybox.mitre.org/XMLSchema/objects/Library/2.0.1/Library_Object.xsd"),
   ("http://cybox.mitre.org/objects#LinkObject-1",
     "http://cybox.mitre.org/XMLSchema/objects/Link/1.0.1/Link_Object.xsd"),
   ("http://cybox.mitre.org/objects#LinuxPackageObject-2",
     "http://cybox.mitre.org/XMLSchema/objects/Linux_Package/2.0.1/Linux_Package_Object.xsd"),
   ("http://cybox.mitre.org/objects#MemoryObject-2",
     "http://cybox.mitre.org/XMLSchema/objects/Memory/2.0.1/Memory_Object.xsd"),
   ("http://cybox.mitre.org/objects#MutexObject-2",
     "http://cybox.mitre.org/XMLSchema/objects/Mutex/2.0.1/Mutex_Object.xsd"),
   ("http://cybox.mitre.org/objects#NetworkConnectionObject-2",
     "http://cybox.mitre.org/XMLSchema/objects/Network_Connection/2.0.1/Network_Connection_Object.xsd"),
   ("http://cybox.mitre.org/objects#NetworkFlowObject-2",
     "http://cybox.mitre.org/XMLSchema/objects/Network_Flow/2.0.1/Network_Flow_Object.xsd"),
   ("http://cybox.mitre.org/objects#NetworkRouteEntryObject-2",
     "http://cybox.mitre.org/XMLSchema/objects/Network_Route_Entry/2.0.1/Network_Route_Entry_Object.xsd"),
   ("http://cybox.mitre.org/objects#NetworkRouteObject-2",
     "http://cybox.mitre.org/XMLSchema/objects/Network_Route/2.0.1/Network_Route_Object.xsd"),
   ("http://cybox.mitre.org/objects#NetworkSocketObject-2",
     "http://cybox.mitre.org/XMLSchema/objects/Network_Socket/2.0.1/Network_Socket_Object.xsd"),
   ("http://cybox.mitre.org/objects#NetworkSubnetObject-2",
     "http://cybox.mitre.org/XMLSchema/objects/Network_Subnet/2.0.1/Network_Subnet_Object.xsd"),
   ("http://cybox.mitre.org/objects#PDFFileObject-1",
     "http://cybox.mitre.org/XMLSchema/objects/PDF_File/1.0.1/PDF_File_Object.xsd"),
   ("http://cybox.mitre.org/objects#PacketObject-2",
     "http://cybox.mitre.org/XMLSchema/objects/Network_Packet/2.0.1/Network_Packet_Object.xsd"),
   ("http://cybox.mitre.org/objects#PipeObject-2",
     "http://cybox.mitre.org/XMLSchema/objects/Pipe/2.0.1/Pipe_Object.xsd"),
   ("http://cybox.mitre.org/objects#PortObject-2",
     "http://cybox.mitre.org/XMLSchema/objects/Port/2.0.1/Port_Object.xsd"),
   ("http://cybox.mitre.org/objects#ProcessObject-2",
     "http://cybox.mitre.org/XMLSchema/objects/Process/2.0.1/Process_Object.xsd"),
   ("http://cybox.mitre.org/objects#ProductObject-2",
     "http://cybox.mitre.org/XMLSchema/objects/Product/2.0.1/Product_Object.xsd"),
   ("http://cybox.mitre.org/objects#SemaphoreObject-2",
     "http://cybox.mitre.org/XMLSchema/objects/Semaphore/2.0.1/Semaphore_Object.xsd"),
   ("http://cybox.mitre.org/objects#SocketAddressObject-1",
     "http://cybox.mitre.org/XMLSchema/objects/Socket_Address/1.0.1/Socket_Address_Object.xsd"),
   ("http://cybox.mitre.org/objects#SystemObject-2",
     "http://cybox.mitre.org/XMLSchema/objects/System/2.0.1/System_Object.xsd"),
   ("http://cybox.mitre.org/objects#URIObject-2",
     "http://cybox.mitre.org/XMLSchema/objects/URI/2.0.1/URI_Object.xsd"),
   ("http://cybox.mitre.org/objects#UnixFileObject-2",
     "http://cybox.mitre.org/XMLSchema/objects/Unix_File/2.0.1/Unix_File_Object.xsd"),
   ("http://cybox.mitre.org/objects#UnixNetworkRouteEntryObject-2",
     "http://cybox.mitre.org/XMLSchema/objects/Unix_Network_Route_Entry/2.0.1/Unix_Network_Route_Entry_Object.xsd"),
   ("http://cybox.mitre.org/objects#UnixPipeObject-2",
     "http://cybox.mitre.org/XMLSchema/objects/Unix_Pipe/2.0.1/Unix_Pipe_Object.xsd"),
   ("http://cybox.mitre.org/objects#UnixProcessObject-2",
     "http://cybox.mitre.org/XMLSchema/objects/Unix_Process/2.0.1/Unix_Process_Object.xsd"),
   ("http://cybox.mitre.org/objects#UnixUserAccountObject-2",
     "http://cybox.mitre.org/XMLSchema/objects/Unix_User_Account/2.0.1/Unix_User_Account_Object.xsd"),
   ("http://cybox.mitre.org/objects#UnixVolumeObject-2",
     "http://cybox.mitre.org/XMLSchema/objects/Unix_Volume/2.0.1/Unix_Volume_Object.xsd"),
   ("http://cybox.mitre.org/objects#UserAccountObject-2",
     "http://cybox.mitre.org/XMLSchema/objects/User_Account/2.0.1/User_Account_Object.xsd"),
   ("http://cybox.mitre.org/objects#UserSessionObject-2",
     "http://cybox.mitre.org/XMLSchema/objects/User_Session/2.0.1/User_Session_Object.xsd"),
   ("http://cybox.mitre.org/objects#VolumeObject-2",
     "http://cybox.mitre.org/XMLSchema/objects/Volume/2.0.1/Volume_Object.xsd"),
   ("http://cybox.mitre.org/objects#WhoisObject-2",
     "http://cybox.mitre.org/XMLSchema/objects/Whois/2.0.1/Whois_Object.xsd"),
   ("http://cybox.mitre.org/objects#WinComputerAccountObject-2",
     "http://cybox.mitre.org/XMLSchema/objects/Win_Computer_Account/2.0.1/Win_Computer_Account_Object.xsd"),
   ("http://cybox.mitre.org/objects#WinCriticalSectionObject-2",
     "http://cybox.mitre.org/XMLSchema/objects/Win_Critical_Section/2.0.1/Win_Critical_Section_Object.xsd"),
   ("http://cybox.mitre.org/objects#WinDriverObject-2",
     "http://cybox.mitre.org/XMLSchema/objects/Win_Driver/2.0.1/Win_Driver_Object.xsd"),
   ("http://cybox.mitre.org/objects#WinEventLogObject-2",
     "http://cybox.mitre.org/XMLSchema/objects/Win_Event_Log/2.0.1/Win_Event_Log_Object.xsd"),
   ("http://cybox.mitre.org/objects#WinEventObject-2",
     "http://cybox.mitre.org/XMLSchema/objects/Win_Event/2.0.1/Win_Event_Object.xsd"),
   ("http://cybox.mitre.org/objects#WinExecutableFileObject-2",
     "http://cybox.mitre.org/XMLSchema/objects/Win_Executable_File/2.0.1/Win_Executable_File_Object.xsd"),
   ("http://cybox.mitre.org/objects#WinFileObject-2",
     "http://cybox.mitre.org/XMLSchema/objects/Win_File/2.0.1/Win_File_Object.xsd"),
   ("http://cybox.mitre.org/objects#WinHandleObject-2",
     "http://cybox.mitre.org/XMLSchema/objects/Win_Handle/2.0.1/Win_Handle_Object.xsd"),
   ("http://cybox.mitre.org/objects#WinKernelHookObject-2",
     "http://cybox.mitre.org/XMLSchema/objects/Win_Kernel_Hook/2.0.1/Win_Kernel_Hook_Object.xsd"),
   ("http://cybox.mitre.org/objects#WinKernelObject-2",
     "http://cybox.mitre.org/XMLSchema/objects/Win_Kernel/2.0.1/Win_Kernel_Object.xsd"),
   ("http://cybox.mitre.org/objects#WinMailslotObject-2",
     "http://cybox.mitre.org/XMLSchema/objects/Win_Mailslot/2.0.1/Win_Mailslot_Object.xsd"),
   ("http://cybox.mitre.org/objects#WinMemoryPageRegionObject-2",
     "http://cybox.mitre.org/XMLSchema/objects/Win_Memory_Page_Region/2.0.1/Win_Memory_Page_Region_Object.xsd"),
   ("http://cybox.mitre.org/objects#WinMutexObject-2",
     "http://cybox.mitre.org/XMLSchema/objects/Win_Mutex/2.0.1/Win_Mutex_Object.xsd"),
   ("http://cybox.mitre.org/objects#WinNetworkRouteEntryObject-2",
     "http://cybox.mitre.org/XMLSchema/objects/Win_Network_Route_Entry/2.0.1/Win_Network_Route_Entry_Object.xsd"),
   ("http://cybox.mitre.org/objects#WinNetworkShareObject-2",
     "http://cybox.mitre.org/XMLSchema/objects/Win_Network_Share/2.0.1/Win_Network_Share_Object.xsd"),
   ("http://cybox.mitre.org/objects#WinPipeObject-2",
     "http://cybox.mitre.org/XMLSchema/objects/Win_Pipe/2.0.1/Win_Pipe_Object.xsd"),
   ("http://cybox.mitre.org/objects#WinPrefetchObject-2",
     "http://cybox.mitre.org/XMLSchema/objects/Win_Prefetch/2.0.1/Win_Prefetch_Object.xsd"),
   ("http://cybox.mitre.org/objects#WinProcessObject-2",
     "http://cybox.mitre.org/XMLSchema/objects/Win_Process/2.0.1/Win_Process_Object.xsd"),
   ("http://cybox.mitre.org/objects#WinRegistryKeyObject-2",
     "http://cybox.mitre.org/XMLSchema/objects/Win_Registry_Key/2.0.1/Win_Registry_Key_Object.xsd"),
   ("http://cybox.mitre.org/objects#WinSemaphoreObject-2",
     "http://cybox.mitre.org/XMLSchema/objects/Win_Semaphore/2.0.1/Win_Semaphore_Object.xsd"),
   ("http://cybox.mitre.org/objects#WinServiceObject-2",
     "http://cybox.mitre.org/XMLSchema/objects/Win_Service/2.0.1/Win_Service_Object.xsd"),
   ("http://cybox.mitre.org/objects#WinSystemObject-2",
     "http://cybox.mitre.org/XMLSchema/objects/Win_System/2.0.1/Win_System_Object.xsd"),
   ("http://cybox.mitre.org/objects#WinSystemRestoreObject-2",
     "http://cybox.mitre.org/XMLSchema/objects/Win_System_Restore/2.0.1/Win_System_Restore_Object.xsd"),
   ("http://cybox.mitre.org/objects#WinTaskObject-2",
     "http://cybox.mitre.org/XMLSchema/objects/Win_Task/2.0.1/Win_Task_Object.xsd"),
   ("http://cybox.mitre.org/objects#WinThreadObject-2",
     "http://cybox.mitre.org/XMLSchema/objects/Win_Thread/2.0.1/Win_Thread_Object.xsd"),
   ("http://cybox.mitre.org/objects#WinUserAccountObject-2",
     "http://cybox.mitre.org/XMLSchema/objects/Win_User_Account/2.0.1/Win_User_Account_Object.xsd"),
   ("http://cybox.mitre.org/objects#WinVolumeObject-2",
     "http://cybox.mitre.org/XMLSchema/objects/Win_Volume/2.0.1/Win_Volume_Object.xsd"),
   ("http://cybox.mitre.org/objects#WinWaitableTimerObject-2",
     "http://cybox.mitre.org/XMLSchema/objects/Win_Waitable_Timer/2.0.1/Win_Waitable_Timer_Object.xsd"),
   ("http://cybox.mitre.org/objects#X509CertificateObject-2",
     "http://cybox.mitre.org/XMLSchema/objects/X509_Certificate/2.0.1/X509_Certificate_Object.xsd")]

/-- `Cybox_2_0_1_Updater.VERSION` (ramrod/cybox/cybox_2_0_1.py:287-287). -/
def cybox201_version : String := "2.0.1"

/-- `Cybox_2_0_1_Updater.NSMAP` (ramrod/cybox/cybox_2_0_1.py:289-372). -/
def cybox201_nsmap : List (String × String) :=
  [("APIObj", "http://cybox.mitre.org/objects#APIObject-2"),
   ("AccountObj", "http://cybox.mitre.org/objects#AccountObject-2"),
   ("AddressObj", "http://cybox.mitre.org/objects#AddressObject-2"),
   ("ArtifactObj", "http://cybox.mitre.org/objects#ArtifactObject-2"),
   ("CodeObj", "http://cybox.mitre.org/objects#CodeObject-2"),
   ("CustomObj", "http://cybox.mitre.org/objects#CustomObject-1"),
   ("DNSCacheObj", "http://cybox.mitre.org/objects#DNSCacheObject-2"),
   ("DNSQueryObj", "http://cybox.mitre.org/objects#DNSQueryObject-2"),
   ("DNSRecordObj", "http://cybox.mitre.org/objects#DNSRecordObject-2"),
   ("DeviceObj", "http://cybox.mitre.org/objects#DeviceObject-2"),
   ("DiskObj", "http://cybox.mitre.org/objects#DiskObject-2"),
   ("DiskPartitionObj", "http://cybox.mitre.org/objects#DiskPartitionObject-2"),
   ("EmailMessageObj", "http://cybox.mitre.org/objects#EmailMessageObject-2"),
   ("FileObj", "http://cybox.mitre.org/objects#FileObject-2"),
   ("GUIDialogBoxObj", "http://cybox.mitre.org/objects#GUIDialogboxObject-2"),
   ("GUIObj", "http://cybox.mitre.org/objects#GUIObject-2"),
   ("GUIWindowObj", "http://cybox.mitre.org/objects#GUIWindowObject-2"),
   ("HTTPSessionObj", "http://cybox.mitre.org/objects#HTTPSessionObject-2"),
   ("LibraryObj", "http://cybox.mitre.org/objects#LibraryObject-2"),
   ("LinkObj", "http://cybox.mitre.org/objects#LinkObject-1"),
   ("LinuxPackageObj", "http://cybox.mitre.org/objects#LinuxPackageObject-2"),
   ("MemoryObj", "http://cybox.mitre.org/objects#MemoryObject-2"),
   ("MutexObj", "http://cybox.mitre.org/objects#MutexObject-2"),
   ("NetFlowObj", "http://cybox.mitre.org/objects#NetworkFlowObject-2"),
   ("NetworkConnectionObj", "http://cybox.mitre.org/objects#NetworkConnectionObject-2"),
   ("NetworkRouteEntryObj", "http://cybox.mitre.org/objects#NetworkRouteEntryObject-2"),
   ("NetworkRouteObj", "http://cybox.mitre.org/objects#NetworkRouteObject-2"),
   ("NetworkSocketObj", "http://cybox.mitre.org/objects#NetworkSocketObject-2"),
   ("NetworkSubnetObj", "http://cybox.mitre.org/objects#NetworkSubnetObject-2"),
   ("PDFFileObj", "http://cybox.mitre.org/objects#PDFFileObject-1"),
   ("PacketObj", "http://cybox.mitre.org/objects#PacketObject-2"),
   ("PipeObj", "http://cybox.mitre.org/objects#PipeObject-2"),
   ("PortObj", "http://cybox.mitre.org/objects#PortObject-2"),
   ("ProcessObj", "http://cybox.mitre.org/objects#ProcessObject-2"),
   ("ProductObj", "http://cybox.mitre.org/objects#ProductObject-2"),
   ("SemaphoreObj", "http://cybox.mitre.org/objects#SemaphoreObject-2"),
   ("SocketAddressObj", "http://cybox.mitre.org/objects#SocketAddressObject-1"),
   ("SystemObj", "http://cybox.mitre.org/objects#SystemObject-2"),
   ("URIObj", "http://cybox.mitre.org/objects#URIObject-2"),
   ("UnixFileObj", "http://cybox.mitre.org/objects#UnixFileObject-2"),
   ("UnixNetworkRouteEntryObj", "http://cybox.mitre.org/objects#UnixNetworkRouteEntryObject-2"),
   ("UnixPipeObj", "http://cybox.mitre.org/objects#UnixPipeObject-2"),
   ("UnixProcessObj", "http://cybox.mitre.org/objects#UnixProcessObject-2"),
   ("UnixUserAccountObj", "http://cybox.mitre.org/objects#UnixUserAccountObject-2"),
   ("UnixVolumeObj", "http://cybox.mitre.org/objects#UnixVolumeObject-2"),
   ("UserAccountObj", "http://cybox.mitre.org/objects#UserAccountObject-2"),
   ("UserSessionObj", "http://cybox.mitre.org/objects#UserSessionObject-2"),
   ("VolumeObj", "http://cybox.mitre.org/objects#VolumeObject-2"),
   ("WhoisObj", "http://cybox.mitre.org/objects#WhoisObject-2"),
   ("WinComputerAccountObj", "http://cybox.mitre.org/objects#WinComputerAccountObject-2"),
   ("WinCriticalSectionObj", "http://cybox.mitre.org/objects#WinCriticalSectionObject-2"),
   ("WinDriverObj", "http://cybox.mitre.org/objects#WinDriverObject-2"),
   ("WinEventLogObj", "http://cybox.mitre.org/objects#WinEventLogObject-2"),
   ("WinEventObj", "http://cybox.mitre.org/objects#WinEventObject-2"),
   ("WinExecutableFileObj", "http://cybox.mitre.org/objects#WinExecutableFileObject-2"),
   ("WinFileObj", "http://cybox.mitre.org/objects#WinFileObject-2"),
   ("WinHandleObj", "http://cybox.mitre.org/objects#WinHandleObject-2"),
   ("WinKernelHookObj", "http://cybox.mitre.org/objects#WinKernelHookObject-2"),
   ("WinKernelObj", "http://cybox.mitre.org/objects#WinKernelObject-2"),
   ("WinMailslotObj", "http://cybox.mitre.org/objects#WinMailslotObject-2"),
   ("WinMemoryPageRegionObj", "http://cybox.mitre.org/objects#WinMemoryPageRegionObject-2"),
   ("WinMutexObj", "http://cybox.mitre.org/objects#WinMutexObject-2"),
   ("WinNetworkRouteEntryObj", "http://cybox.mitre.org/objects#WinNetworkRouteEntryObject-2"),
   ("WinNetworkShareObj", "http://cybox.mitre.org/objects#WinNetworkShareObject-2"),
   ("WinPipeObj", "http://cybox.mitre.org/objects#WinPipeObject-2"),
   ("WinPrefetchObj", "http://cybox.mitre.org/objects#WinPrefetchObject-2"),
   ("WinProcessObj", "http://cybox.mitre.org/objects#WinProcessObject-2"),
   ("WinRegistryKeyObj", "http://cybox.mitre.org/objects#WinRegistryKeyObject-2"),
   ("WinSemaphoreObj", "http://cybox.mitre.org/objects#WinSemaphoreObject-2"),
   ("WinServiceObj", "http://cybox.mitre.org/objects#WinServiceObject-2"),
   ("WinSystemObj", "http://cybox.mitre.org/objects#WinSystemObject-2"),
   ("WinSystemRestoreObj", "http://cybox.mitre.org/objects#WinSystemRestoreObject-2"),
   ("WinTaskObj", "http://cybox.mitre.org/objects#WinTaskObject-2"),
   ("WinThreadObj", "http://cybox.mitre.org/objects#WinThreadObject-2"),
   ("WinUserAccountObj", "http://cybox.mitre.org/objects#WinUserAccountObject-2"),
   ("WinVolumeObj", "http://cybox.mitre.org/objects#WinVolumeObject-2"),
   ("WinWaitableTimerObj", "http://cybox.mitre.org/objects#WinWaitableTimerObject-2"),
   ("X509CertificateObj", "http://cybox.mitre.org/objects#X509CertificateObject-2"),
   ("cybox", "http://cybox.mitre.org/cybox-2"),
   ("cyboxCommon", "http://cybox.mitre.org/common-2"),
   ("cyboxVocabs", "http://cybox.mitre.org/default_vocabularies-2"),
   ("cybox-cpe", "http://cybox.mitre.org/extensions/platform#CPE2.3-1")]

/-- `Cybox_2_0_1_Updater.UPDATE_NS_MAP` (ramrod/cybox/cybox_2_0_1.py:409-411). -/
def cybox201_updateNsMap : List (String × String) :=
  [("http://cybox.mitre.org/objects#WinDriverObject-2",
     "http://cybox.mitre.org/objects#WinDriverObject-3")]

/-- `Cybox_2_0_1_Updater.UPDATE_SCHEMALOC_MAP` (ramrod/cybox/cybox_2_0_1.py:414-508). -/
def cybox201_schemalocMap : List (String × String) :=
  [("http://cybox.mitre.org/common-2",
     "http://cybox.mitre.org/XMLSchema/common/2.1/cybox_common.xsd"),
   ("http://cybox.mitre.org/cybox-2", "http://cybox.mitre.org/XMLSchema/core/2.1/cybox_core.xsd"),
   ("http://cybox.mitre.org/default_vocabularies-2",
     "http://cybox.mitre.org/XMLSchema/default_vocabularies/2.1/cybox_default_vocabularies.xsd"),
   ("http://cybox.mitre.org/extensions/Address#CIQAddress3.0-1",
     "http://cybox.mitre.org/XMLSchema/extensions/location/ciq_address_3.0/1.0/ciq_address_3.0.xsd"),
   ("http://cybox.mitre.org/extensions/platform#CPE2.3-1",
     "http://cybox.mitre.org/XMLSchema/extensions/platform/cpe2.3/1.1/cpe2.3.xsd"),
   ("http://cybox.mitre.org/objects#APIObject-2",
     "http://cybox.mitre.org/XMLSchema/objects/API/2.1/API_Object.xsd"),
   ("http://cybox.mitre.org/objects#ARPCacheObject-1",
     "http://cybox.mitre.org/XMLSchema/objects/ARP_Cache/1.0/ARP_Cache_Object.xsd"),
   ("http://cybox.mitre.org/objects#ASObject-1",
     "http://cybox.mitre.org/XMLSchema/objects/AS/1.0/AS_Object.xsd"),
   ("http://cybox.mitre.org/objects#AccountObject-2",
     "http://cybox.mitre.org/XMLSchema/objects/Account/2.1/Account_Object.xsd"),
   ("http://cybox.mitre.org/objects#AddressObject-2",
     "http://cybox.mitre.org/XMLSchema/objects/Address/2.1/Address_Object.xsd"),
   ("http://cybox.mitre.org/objects#ArchiveFileObject-1",
     "http://cybox.mitre.org/XMLSchema/objects/Archive_File/1.0/Archive_File_Object.xsd"),
   ("http://cybox.mitre.org/objects#ArtifactObject-2",
     "http://cybox.mitre.org/XMLSchema/objects/Artifact/2.1/Artifact_Object.xsd"),
   ("http://cybox.mitre.org/objects#CodeObject-2",
     "http://cybox.mitre.org/XMLSchema/objects/Code/2.1/Code_Object.xsd"),
   ("http://cybox.mitre.org/objects#CustomObject-1",
     "http://cybox.mitre.org/XMLSchema/objects/Custom/1.1/Custom_Object.xsd"),
   ("http://cybox.mitre.org/objects#DNSCacheObject-2",
     "http://cybox.mitre.org/XMLSchema/objects/DNS_Cache/2.1/DNS_Cache_Object.xsd"),
   ("http://cybox.mitre.org/objects#DNSQueryObject-2",
     "http://cybox.mitre.org/XMLSchema/objects/DNS_Query/2.1/DNS_Query_Object.xsd"),
   ("http://cybox.mitre.org/objects#DNSRecordObject-2",
     "http://cybox.mitre.org/XMLSchema/objects/DNS_Record/2.1/DNS_Record_Object.xsd"),
   ("http://cybox.mitre.org/objects#DeviceObject-2",
     "http://cybox.mitre.org/XMLSchema/objects/Device/2.1/Device_Object.xsd"),
   ("http://cybox.mitre.org/objects#DiskObject-2",
     "http://cybox.mitre.org/XMLSchema/objects/Disk/2.1/Disk_Object.xsd"),
   ("http://cybox.mitre.org/objects#DiskPartitionObject-2",
     "http://cybox.mitre.org/XMLSchema/objects/Disk_Partition/2.1/Disk_Partition_Object.xsd"),
   ("http://cybox.mitre.org/objects#DomainNameObject-1",
     "http://cybox.mitre.org/XMLSchema/objects/Domain_Name/1.0/Domain_Name_Object.xsd"),
   ("http://cybox.mitre.org/objects#EmailMessageObject-2",
     "http://cybox.mitre.org/XMLSchema/objects/Email_Message/2.1/Email_Message_Object.xsd"),
   ("http://cybox.mitre.org/objects#FileObject-2",
     "http://cybox.mitre.org/XMLSchema/objects/File/2.1/File_Object.xsd"),
   ("http://cybox.mitre.org/objects#GUIDialogboxObject-2",
     "http://cybox.mitre.org/XMLSchema/objects/GUI_Dialogbox/2.1/GUI_Dialogbox_Object.xsd"),
   ("http://cybox.mitre.org/objects#GUIObject-2",
     "http://cybox.mitre.org/XMLSchema/objects/GUI/2.1/GUI_Object.xsd"),
   ("http://cybox.mitre.org/objects#GUIWindowObject-2",
     "http://cybox.mitre.org/XMLSchema/objects/GUI_Window/2.1/GUI_Window_Object.xsd"),
   ("http://cybox.mitre.org/objects#HTTPSessionObject-2",
     "http://cybox.mitre.org/XMLSchema/objects/HTTP_Session/2.1/HTTP_Session_Object.xsd"),
   ("http://cybox.mitre.org/objects#HostnameObject-1",
     "http://cybox.mitre.org/XMLSchema/objects/Hostname/1.0/Hostname_Object.xsd"),
   ("http://cybox.mitre.org/objects#ImageFileObject-1",
     "http://cybox.mitre.org/XMLSchema/objects/Image_File/1.0/Image_File_Object.xsd"),
   ("http://cybox.mitre.org/objects#LibraryObject-2",
     "http://cybox.mitre.org/XMLSchema/objects/Library/2.1/Library_Object.xsd"),
   ("http://cybox.mitre.org/objects#LinkObject-1",
     "http://cybox.mitre.org/XMLSchema/objects/Link/1.1/Link_Object.xsd"),
   ("http://cybox.mitre.org/objects#LinuxPackageObject-2",
     "http://cybox.mitre.org/XMLSchema/objects/Linux_Package/2.1/Linux_Package_Object.xsd"),
   ("http://cybox.mitre.org/objects#MemoryObject-2",
     "http://cybox.mitre.org/XMLSchema/objects/Memory/2.1/Memory_Object.xsd"),
   ("http://cybox.mitre.org/objects#MutexObject-2",
     "http://cybox.mitre.org/XMLSchema/objects/Mutex/2.1/Mutex_Object.xsd"),
   ("http://cybox.mitre.org/objects#NetworkConnectionObject-2",
     "http://cybox.mitre.org/XMLSchema/objects/Network_Connection/2.1/Network_Connection_Object.xsd"),
   ("http://cybox.mitre.org/objects#NetworkFlowObject-2",
     "http://cybox.mitre.org/XMLSchema/objects/Network_Flow/2.1/Network_Flow_Object.xsd"),
   ("http://cybox.mitre.org/objects#NetworkRouteEntryObject-2",
     "http://cybox.mitre.org/XMLSchema/objects/Network_Route_Entry/2.1/Network_Route_Entry_Object.xsd"),
   ("http://cybox.mitre.org/objects#NetworkRouteObject-2",
     "http://cybox.mitre.org/XMLSchema/objects/Network_Route/2.1/Network_Route_Object.xsd"),
   ("http://cybox.mitre.org/objects#NetworkSocketObject-2",
     "http://cybox.mitre.org/XMLSchema/objects/Network_Socket/2.1/Network_Socket_Object.xsd"),
   ("http://cybox.mitre.org/objects#NetworkSubnetObject-2",
     "http://cybox.mitre.org/XMLSchema/objects/Network_Subnet/2.1/Network_Subnet_Object.xsd"),
   ("http://cybox.mitre.org/objects#PDFFileObject-1",
     "http://cybox.mitre.org/XMLSchema/objects/PDF_File/1.1/PDF_File_Object.xsd"),
   ("http://cybox.mitre.org/objects#PacketObject-2",
     "http://cybox.mitre.org/XMLSchema/objects/Network_Packet/2.1/Network_Packet_Object.xsd"),
   ("http://cybox.mitre.org/objects#PipeObject-2",
     "http://cybox.mitre.org/XMLSchema/objects/Pipe/2.1/Pipe_Object.xsd"),
   ("http://cybox.mitre.org/objects#PortObject-2",
     "http://cybox.mitre.org/XMLSchema/objects/Port/2.1/Port_Object.xsd"),
   ("http://cybox.mitre.org/objects#ProcessObject-2",
     "http://cybox.mitre.org/XMLSchema/objects/Process/2.1/Process_Object.xsd"),
   ("http://cybox.mitre.org/objects#ProductObject-2",
     "http://cybox.mitre.org/XMLSchema/objects/Product/2.1/Product_Object.xsd"),
   ("http://cybox.mitre.org/objects#SMSMessageObject-1",
     "http://cybox.mitre.org/XMLSchema/objects/SMS_Message/1.0/SMS_Message_Object.xsd"),
   ("http://cybox.mitre.org/objects#SemaphoreObject-2",
     "http://cybox.mitre.org/XMLSchema/objects/Semaphore/2.1/Semaphore_Object.xsd"),
   ("http://cybox.mitre.org/objects#SocketAddressObject-1",
     "http://cybox.mitre.org/XMLSchema/objects/Socket_Address/1.1/Socket_Address_Object.xsd"),
   ("http://cybox.mitre.org/objects#SystemObject-2",
     "http://cybox.mitre.org/XMLSchema/objects/System/2.1/System_Object.xsd"),
   ("http://cybox.mitre.org/objects#URIObject-2",
     "http://cybox.mitre.org/XMLSchema/objects/URI/2.1/URI_Object.xsd"),
   ("http://cybox.mitre.org/objects#URLHistoryObject-1",
     "http://cybox.mitre.org/XMLSchema/objects/URL_History/1.0/URL_History_Object.xsd"),
   ("http://cybox.mitre.org/objects#UnixFileObject-2",
     "http://cybox.mitre.org/XMLSchema/objects/Unix_File/2.1/Unix_File_Object.xsd"),
   ("http://cybox.mitre.org/objects#UnixNetworkRouteEntryObject-2",
     "http://cybox.mitre.org/XMLSchema/objects/Unix_Network_Route_Entry/2.1/Unix_Network_Route_Entry_Object.xsd"),
   ("http://cybox.mitre.org/objects#UnixPipeObject-2",
     "http://cybox.mitre.org/XMLSchema/objects/Unix_Pipe/2.1/Unix_Pipe_Object.xsd"),
   ("http://cybox.mitre.org/objects#UnixProcessObject-2",
     "http://cybox.mitre.org/XMLSchema/objects/Unix_Process/2.1/Unix_Process_Object.xsd"),
   ("http://cybox.mitre.org/objects#UnixUserAccountObject-2",
     "http://cybox.mitre.org/XMLSchema/objects/Unix_User_Account/2.1/Unix_User_Account_Object.xsd"),
   ("http://cybox.mitre.org/objects#UnixVolumeObject-2",
     "http://cybox.mitre.org/XMLSchema/objects/Unix_Volume/2.1/Unix_Volume_Object.xsd"),
   ("http://cybox.mitre.org/objects#UserAccountObject-2",
     "http://cybox.mitre.org/XMLSchema/objects/User_Account/2.1/User_Account_Object.xsd"),
   ("http://cybox.mitre.org/objects#UserSessionObject-2",
     "http://cybox.mitre.org/XMLSchema/objects/User_Session/2.1/User_Session_Object.xsd"),
   ("http://cybox.mitre.org/objects#VolumeObject-2",
     "http://cybox.mitre.org/XMLSchema/objects/Volume/2.1/Volume_Object.xsd"),
   ("http://cybox.mitre.org/objects#WhoisObject-2",
     "http://cybox.mitre.org/XMLSchema/objects/Whois/2.1/Whois_Object.xsd"),
   ("http://cybox.mitre.org/objects#WinComputerAccountObject-2",
     "http://cybox.mitre.org/XMLSchema/objects/Win_Computer_Account/2.1/Win_Computer_Account_Object.xsd"),
   ("http://cybox.mitre.org/objects#WinCriticalSectionObject-2",
     "http://cybox.mitre.org/XMLSchema/objects/Win_Critical_Section/2.1/Win_Critical_Section_Object.xsd"),
   ("http://cybox.mitre.org/objects#WinDriverObject-3",
     "http://cybox.mitre.org/XMLSchema/objects/Win_Driver/3.0/Win_Driver_Object.xsd"),
   ("http://cybox.mitre.org/objects#WinEventLogObject-2",
     "http://cybox.mitre.org/XMLSchema/objects/Win_Event_Log/2.1/Win_Event_Log_Object.xsd"),
   ("http://cybox.mitre.org/objects#WinEventObject-2",
     "http://cybox.mitre.org/XMLSchema/objects/Win_Event/2.1/Win_Event_Object.xsd"),
   ("http://cybox.mitre.org/objects#WinExecutableFileObject-2",
     "http://cybox.mitre.org/XMLSchema/objects/Win_Executable_File/2.1/Win_Executable_File_Object.xsd"),
   ("http://cybox.mitre.org/objects#WinFileObject-2",
     "http://cybox.mitre.org/XMLSchema/objects/Win_File/2.1/Win_File_Object.xsd"),
   ("http://cybox.mitre.org/objects#WinFilemappingObject-1",
     "http://cybox.mitre.org/XMLSchema/objects/Win_Filemapping/1.0/Win_Filemapping_Object.xsd"),
   ("http://cybox.mitre.org/objects#WinHandleObject-2",
     "http://cybox.mitre.org/XMLSchema/objects/Win_Handle/2.1/Win_Handle_Object.xsd"),
   ("http://cybox.mitre.org/objects#WinHookObject-1",
     "http://cybox.mitre.org/XMLSchema/objects/Win_Hook/1.0/Win_Hook_Object.xsd"),
   ("http://cybox.mitre.org/objects#WinKernelHookObject-2",
     "http://cybox.mitre.org/XMLSchema/objects/Win_Kernel_Hook/2.1/Win_Kernel_Hook_Object.xsd"),
   ("http://cybox.mitre.org/objects#WinKernelObject-2",
     "http://cybox.mitre.org/XMLSchema/objects/Win_Kernel/2.1/Win_Kernel_Object.xsd"),
   ("http://cybox.mitre.org/objects#WinMailslotObject-2",
     "http://cybox.mitre.org/XMLSchema/objects/Win_Mailslot/2.1/Win_Mailslot_Object.xsd"),
   ("http://cybox.mitre.org/objects#WinMemoryPageRegionObject-2",
     "http://cybox.mitre.org/XMLSchema/objects/Win_Memory_Page_Region/2.1/Win_Memory_Page_Region_Object.xsd"),
   ("http://cybox.mitre.org/objects#WinMutexObject-2",
     "http://cybox.mitre.org/XMLSchema/objects/Win_Mutex/2.1/Win_Mutex_Object.xsd"),
   ("http://cybox.mitre.org/objects#WinNetworkRouteEntryObject-2",
     "http://cybox.mitre.org/XMLSchema/objects/Win_Network_Route_Entry/2.1/Win_Network_Route_Entry_Object.xsd"),
   ("http://cybox.mitre.org/objects#WinNetworkShareObject-2",
     "http://cybox.mitre.org/XMLSchema/objects/Win_Network_Share/2.1/Win_Network_Share_Object.xsd"),
   ("http://cybox.mitre.org/objects#WinPipeObject-2",
     "http://cybox.mitre.org/XMLSchema/objects/Win_Pipe/2.1/Win_Pipe_Object.xsd"),
   ("http://cybox.mitre.org/objects#WinPrefetchObject-2",
     "http://cybox.mitre.org/XMLSchema/objects/Win_Prefetch/2.1/Win_Prefetch_Object.xsd"),
   ("http://cybox.mitre.org/objects#WinProcessObject-2",
     "http://cybox.mitre.org/XMLSchema/objects/Win_Process/2.1/Win_Process_Object.xsd"),
   ("http://cybox.mitre.org/objects#WinRegistryKeyObject-2",
     "http://cybox.mitre.org/XMLSchema/objects/Win_Registry_Key/2.1/Win_Registry_Key_Object.xsd"),
   ("http://cybox.mitre.org/objects#WinSemaphoreObject-2",
     "http://cybox.mitre.org/XMLSchema/objects/Win_Semaphore/2.1/Win_Semaphore_Object.xsd"),
   ("http://cybox.mitre.org/objects#WinServiceObject-2",
     "http://cybox.mitre.org/XMLSchema/objects/Win_Service/2.1/Win_Service_Object.xsd"),
   ("http://cybox.mitre.org/objects#WinSystemObject-2",
     "http://cybox.mitre.org/XMLSchema/objects/Win_System/2.1/Win_System_Object.xsd"),
   ("http://cybox.mitre.org/objects#WinSystemRestoreObject-2",
     "http://cybox.mitre.org/XMLSchema/objects/Win_System_Restore/2.1/Win_System_Restore_Object.xsd"),
   ("http://cybox.mitre.org/objects#WinTaskObject-2",
     "http://cybox.mitre.org/XMLSchema/objects/Win_Task/2.1/Win_Task_Object.xsd"),
   ("http://cybox.mitre.org/objects#WinThreadObject-2",
     "http://cybox.mitre.org/XMLSchema/objects/Win_Thread/2.1/Win_Thread_Object.xsd"),
   ("http://cybox.mitre.org/objects#WinUserAccountObject-2",
     "http://cybox.mitre.org/XMLSchema/objects/Win_User_Account/2.1/Win_User_Account_Object.xsd"),
   ("http://cybox.mitre.org/objects#WinVolumeObject-2",
     "http://cybox.mitre.org/XMLSchema/objects/Win_Volume/2.1/Win_Volume_Object.xsd"),
   ("http://cybox.mitre.org/objects#WinWaitableTimerObject-2",
     "http://cybox.mitre.org/XMLSchema/objects/Win_Waitable_Timer/2.1/Win_Waitable_Timer_Object.xsd"),
   ("http://cybox.mitre.org/objects#X509CertificateObject-2",
     "http://cybox.mitre.org/XMLSchema/objects/X509_Certificate/2.1/X509_Certificate_Object.xsd")]

/-- `STIX_1_0_Updater.VERSION` (ramrod/stix/stix_1_0.py:130-130). -/
def stix10_version : String := "1.0"

/-- `STIX_1_0_Updater.NSMAP` (ramrod/stix/stix_1_0.py:132-157). -/
def stix10_nsmap : List (String × String) :=
  [("campaign", "http://stix.mitre.org/Campaign-1"),
   ("stix-capec", "http://stix.mitre.org/extensions/AP#CAPEC2.5-1"),
   ("ciqAddress", "http://stix.mitre.org/extensions/Address#CIQAddress3.0-1"),
   ("stix-ciq", "http://stix.mitre.org/extensions/Identity#stix-ciq3.0-1"),
   ("coa", "http://stix.mitre.org/CourseOfAction-1"),
   ("et", "http://stix.mitre.org/ExploitTarget-1"),
   ("genericStructuredCOA", "http://stix.mitre.org/extensions/StructuredCOA#Generic-1"),
   ("genericTM", "http://stix.mitre.org/extensions/TestMechanism#Generic-1"),
   ("incident", "http://stix.mitre.org/Incident-1"),
   ("indicator", "http://stix.mitre.org/Indicator-2"),
   ("stix-maec", "http://stix.mitre.org/extensions/Malware#MAEC4.0-1"),
   ("marking", "http://data-marking.mitre.org/Marking-1"),
   ("stix-openioc", "http://stix.mitre.org/extensions/TestMechanism#OpenIOC2010-1"),
   ("stix-oval", "http://stix.mitre.org/extensions/TestMechanism#OVAL5.10-1"),
   ("simpleMarking", "http://data-marking.mitre.org/extensions/MarkingStructure#Simple-1"),
   ("snortTM", "http://stix.mitre.org/extensions/TestMechanism#Snort-1"),
   ("stix", "http://stix.mitre.org/stix-1"),
   ("stixCommon", "http://stix.mitre.org/common-1"),
   ("stixVocabs", "http://stix.mitre.org/default_vocabularies-1"),
   ("ta", "http://stix.mitre.org/ThreatActor-1"),
   ("tlpMarking", "http://data-marking.mitre.org/extensions/MarkingStructure#TLP-1"),
   ("ttp", "http://stix.mitre.org/TTP-1"),
   ("stix-cvrf", "http://stix.mitre.org/extensions/Vulnerability#CVRF-1"),
   ("yaraTM", "http://stix.mitre.org/extensions/TestMechanism#YARA-1")]

/-- `STIX_1_0_Updater.DISALLOWED_NAMESPACES` (ramrod/stix/stix_1_0.py:159-162). -/
def stix10_disallowedNs : List String :=
  ["http://stix.mitre.org/extensions/AP#CAPEC2.5-1",
   "http://stix.mitre.org/extensions/Malware#MAEC4.0-1"]

/-- `STIX_1_0_Updater.UPDATE_SCHEMALOC_MAP` (ramrod/stix/stix_1_0.py:172-197). -/
def stix10_schemalocMap : List (String × String) :=
  [("http://data-marking.mitre.org/Marking-1",
     "http://stix.mitre.org/XMLSchema/data_marking/1.0.1/data_marking.xsd"),
   ("http://data-marking.mitre.org/extensions/MarkingStructure#Simple-1",
     "http://stix.mitre.org/XMLSchema/extensions/marking/simple_marking/1.0.1/simple_marking.xsd"),
   ("http://data-marking.mitre.org/extensions/MarkingStructure#TLP-1",
     "http://stix.mitre.org/XMLSchema/extensions/marking/tlp/1.0.1/tlp.xsd"),
   ("http://stix.mitre.org/Campaign-1",
     "http://stix.mitre.org/XMLSchema/campaign/1.0.1/campaign.xsd"),
   ("http://stix.mitre.org/CourseOfAction-1",
     "http://stix.mitre.org/XMLSchema/course_of_action/1.0.1/course_of_action.xsd"),
   ("http://stix.mitre.org/ExploitTarget-1",
     "http://stix.mitre.org/XMLSchema/exploit_target/1.0.1/exploit_target.xsd"),
   ("http://stix.mitre.org/Incident-1",
     "http://stix.mitre.org/XMLSchema/incident/1.0.1/incident.xsd"),
   ("http://stix.mitre.org/Indicator-2",
     "http://stix.mitre.org/XMLSchema/indicator/2.0.1/indicator.xsd"),
   ("http://stix.mitre.org/TTP-1", "http://stix.mitre.org/XMLSchema/ttp/1.0.1/ttp.xsd"),
   ("http://stix.mitre.org/ThreatActor-1",
     "http://stix.mitre.org/XMLSchema/threat_actor/1.0.1/threat_actor.xsd"),
   ("http://stix.mitre.org/common-1", "http://stix.mitre.org/XMLSchema/common/1.0.1/stix_common.xsd"),
   ("http://stix.mitre.org/default_vocabularies-1",
     "http://stix.mitre.org/XMLSchema/default_vocabularies/1.0.1/stix_default_vocabularies.xsd"),
   ("http://stix.mitre.org/extensions/AP#CAPEC2.6-1",
     "http://stix.mitre.org/XMLSchema/extensions/attack_pattern/capec_2.6.1/1.0.1/capec_2.6.1.xsd"),
   ("http://stix.mitre.org/extensions/Address#CIQAddress3.0-1",
     "http://stix.mitre.org/XMLSchema/extensions/address/ciq_address_3.0/1.0.1/ciq_address_3.0.xsd"),
   ("http://stix.mitre.org/extensions/Identity#CIQIdentity3.0-1",
     "http://stix.mitre.org/XMLSchema/extensions/identity/ciq_identity_3.0/1.0.1/ciq_identity_3.0.xsd"),
   ("http://stix.mitre.org/extensions/Malware#MAEC4.0-1",
     "http://stix.mitre.org/XMLSchema/extensions/malware/maec_4.0.1/1.0.1/maec_4.0.1.xsd"),
   ("http://stix.mitre.org/extensions/StructuredCOA#Generic-1",
     "http://stix.mitre.org/XMLSchema/extensions/structured_coa/generic/1.0.1/generic.xsd"),
   ("http://stix.mitre.org/extensions/TestMechanism#Generic-1",
     "http://stix.mitre.org/XMLSchema/extensions/test_mechanism/generic/1.0.1/generic.xsd"),
   ("http://stix.mitre.org/extensions/TestMechanism#OVAL5.10-1",
     "http://stix.mitre.org/XMLSchema/extensions/test_mechanism/oval_5.10/1.0.1/oval_5.10.xsd"),
   ("http://stix.mitre.org/extensions/TestMechanism#OpenIOC2010-1",
     "http://stix.mitre.org/XMLSchema/extensions/test_mechanism/open_ioc_2010/1.0.1/open_ioc_2010.xsd"),
   ("http://stix.mitre.org/extensions/TestMechanism#Snort-1",
     "http://stix.mitre.org/XMLSchema/extensions/test_mechanism/snort/1.0.1/snort.xsd"),
   ("http://stix.mitre.org/extensions/TestMechanism#YARA-1",
     "http://stix.mitre.org/XMLSchema/extensions/test_mechanism/yara/1.0.1/yara.xsd"),
   ("http://stix.mitre.org/extensions/Vulnerability#CVRF-1",
     "http://stix.mitre.org/XMLSchema/extensions/vulnerability/cvrf_1.1/1.0.1/cvrf_1.1.xsd"),
   ("http://stix.mitre.org/stix-1", "http://stix.mitre.org/XMLSchema/core/1.0.1/stix_core.xsd")]

/-- `STIX_1_0_1_Updater.VERSION` (ramrod/stix/stix_1_0_1.py:288-288). -/
def stix101_version : String := "1.0.1"

/-- `STIX_1_0_1_Updater.NSMAP` (ramrod/stix/stix_1_0_1.py:290-315). -/
def stix101_nsmap : List (String × String) :=
  [("campaign", "http://stix.mitre.org/Campaign-1"),
   ("stix-capec", "http://stix.mitre.org/extensions/AP#CAPEC2.6-1"),
   ("ciqAddress", "http://stix.mitre.org/extensions/Address#CIQAddress3.0-1"),
   ("coa", "http://stix.mitre.org/CourseOfAction-1"),
   ("et", "http://stix.mitre.org/ExploitTarget-1"),
   ("genericStructuredCOA", "http://stix.mitre.org/extensions/StructuredCOA#Generic-1"),
   ("genericTM", "http://stix.mitre.org/extensions/TestMechanism#Generic-1"),
   ("incident", "http://stix.mitre.org/Incident-1"),
   ("indicator", "http://stix.mitre.org/Indicator-2"),
   ("stix-maec", "http://stix.mitre.org/extensions/Malware#MAEC4.0-1"),
   ("marking", "http://data-marking.mitre.org/Marking-1"),
   ("stix-openioc", "http://stix.mitre.org/extensions/TestMechanism#OpenIOC2010-1"),
   ("stix-oval", "http://stix.mitre.org/extensions/TestMechanism#OVAL5.10-1"),
   ("simpleMarking", "http://data-marking.mitre.org/extensions/MarkingStructure#Simple-1"),
   ("snortTM", "http://stix.mitre.org/extensions/TestMechanism#Snort-1"),
   ("stix", "http://stix.mitre.org/stix-1"),
   ("stix-ciq", "http://stix.mitre.org/extensions/Identity#stix-ciq3.0-1"),
   ("stixCommon", "http://stix.mitre.org/common-1"),
   ("stixVocabs", "http://stix.mitre.org/default_vocabularies-1"),
   ("ta", "http://stix.mitre.org/ThreatActor-1"),
   ("tlpMarking", "http://data-marking.mitre.org/extensions/MarkingStructure#TLP-1"),
   ("ttp", "http://stix.mitre.org/TTP-1"),
   ("stix-cvrf", "http://stix.mitre.org/extensions/Vulnerability#CVRF-1"),
   ("yaraTM", "http://stix.mitre.org/extensions/TestMechanism#YARA-1")]

/-- `STIX_1_0_1_Updater.DISALLOWED_NAMESPACES` (ramrod/stix/stix_1_0_1.py:317-320). -/
def stix101_disallowedNs : List String :=
  ["http://stix.mitre.org/extensions/AP#CAPEC2.6-1",
   "http://stix.mitre.org/extensions/Malware#MAEC4.0-1"]

/-- `STIX_1_0_1_Updater.UPDATE_SCHEMALOC_MAP` (ramrod/stix/stix_1_0_1.py:323-349). -/
def stix101_schemalocMap : List (String × String) :=
  [("http://data-marking.mitre.org/Marking-1",
     "http://stix.mitre.org/XMLSchema/data_marking/1.1/data_marking.xsd"),
   ("http://data-marking.mitre.org/extensions/MarkingStructure#Simple-1",
     "http://stix.mitre.org/XMLSchema/extensions/marking/simple/1.1/simple_marking.xsd"),
   ("http://data-marking.mitre.org/extensions/MarkingStructure#TLP-1",
     "http://stix.mitre.org/XMLSchema/extensions/marking/tlp/1.1/tlp_marking.xsd"),
   ("http://data-marking.mitre.org/extensions/MarkingStructure#Terms_Of_Use-1",
     "http://stix.mitre.org/XMLSchema/extensions/marking/terms_of_use/1.0/terms_of_use_marking.xsd"),
   ("http://stix.mitre.org/Campaign-1", "http://stix.mitre.org/XMLSchema/campaign/1.1/campaign.xsd"),
   ("http://stix.mitre.org/CourseOfAction-1",
     "http://stix.mitre.org/XMLSchema/course_of_action/1.1/course_of_action.xsd"),
   ("http://stix.mitre.org/ExploitTarget-1",
     "http://stix.mitre.org/XMLSchema/exploit_target/1.1/exploit_target.xsd"),
   ("http://stix.mitre.org/Incident-1", "http://stix.mitre.org/XMLSchema/incident/1.1/incident.xsd"),
   ("http://stix.mitre.org/Indicator-2",
     "http://stix.mitre.org/XMLSchema/indicator/2.1/indicator.xsd"),
   ("http://stix.mitre.org/TTP-1", "http://stix.mitre.org/XMLSchema/ttp/1.1/ttp.xsd"),
   ("http://stix.mitre.org/ThreatActor-1",
     "http://stix.mitre.org/XMLSchema/threat_actor/1.1/threat_actor.xsd"),
   ("http://stix.mitre.org/common-1", "http://stix.mitre.org/XMLSchema/common/1.1/stix_common.xsd"),
   ("http://stix.mitre.org/default_vocabularies-1",
     "http://stix.mitre.org/XMLSchema/default_vocabularies/1.1.0/stix_default_vocabularies.xsd"),
   ("http://stix.mitre.org/extensions/AP#CAPECa2.7-1",
     "http://stix.mitre.org/XMLSchema/extensions/attack_pattern/capec_2.7/1.0/capec_2.7_attack_pattern.xsd"),
   ("http://stix.mitre.org/extensions/Address#CIQAddress3.0-1",
     "http://stix.mitre.org/XMLSchema/extensions/address/ciq_3.0/1.1/ciq_3.0_address.xsd"),
   ("http://stix.mitre.org/extensions/Identity#CIQIdentity3.0-1",
     "http://stix.mitre.org/XMLSchema/extensions/identity/ciq_3.0/1.1/ciq_3.0_identity.xsd"),
   ("http://stix.mitre.org/extensions/Malware#MAEC4.1-1",
     "http://stix.mitre.org/XMLSchema/extensions/malware/maec_4.1/1.0/maec_4.1_malware.xsd"),
   ("http://stix.mitre.org/extensions/StructuredCOA#Generic-1",
     "http://stix.mitre.org/XMLSchema/extensions/structured_coa/generic/1.1/generic_structured_coa.xsd"),
   ("http://stix.mitre.org/extensions/TestMechanism#Generic-1",
     "http://stix.mitre.org/XMLSchema/extensions/test_mechanism/generic/1.1/generic_test_mechanism.xsd"),
   ("http://stix.mitre.org/extensions/TestMechanism#OVAL5.10-1",
     "http://stix.mitre.org/XMLSchema/extensions/test_mechanism/oval_5.10/1.1/oval_5.10_test_mechanism.xsd"),
   ("http://stix.mitre.org/extensions/TestMechanism#OpenIOC2010-1",
     "http://stix.mitre.org/XMLSchema/extensions/test_mechanism/open_ioc_2010/1.1/open_ioc_2010_test_mechanism.xsd"),
   ("http://stix.mitre.org/extensions/TestMechanism#Snort-1",
     "http://stix.mitre.org/XMLSchema/extensions/test_mechanism/snort/1.1/snort_test_mechanism.xsd"),
   ("http://stix.mitre.org/extensions/TestMechanism#YARA-1",
     "http://stix.mitre.org/XMLSchema/extensions/test_mechanism/yara/1.1/yara_test_mechanism.xsd"),
   ("http://stix.mitre.org/extensions/Vulnerability#CVRF-1",
     "http://stix.mitre.org/XMLSchema/extensions/vulnerability/cvrf_1.1/1.1/cvrf_1.1_vulnerability.xsd"),
   ("http://stix.mitre.org/stix-1", "http://stix.mitre.org/XMLSchema/core/1.1/stix_core.xsd")]

/-- `STIX_1_1_Updater.VERSION` (ramrod/stix/stix_1_1.py:215-215). -/
def stix11_version : String := "1.1"

/-- `STIX_1_1_Updater.NSMAP` (ramrod/stix/stix_1_1.py:217-243). -/
def stix11_nsmap : List (String × String) :=
  [("TOUMarking", "http://data-marking.mitre.org/extensions/MarkingStructure#Terms_Of_Use-1"),
   ("campaign", "http://stix.mitre.org/Campaign-1"),
   ("coa", "http://stix.mitre.org/CourseOfAction-1"),
   ("et", "http://stix.mitre.org/ExploitTarget-1"),
   ("genericStructuredCOA", "http://stix.mitre.org/extensions/StructuredCOA#Generic-1"),
   ("genericTM", "http://stix.mitre.org/extensions/TestMechanism#Generic-1"),
   ("incident", "http://stix.mitre.org/Incident-1"),
   ("indicator", "http://stix.mitre.org/Indicator-2"),
   ("marking", "http://data-marking.mitre.org/Marking-1"),
   ("simpleMarking", "http://data-marking.mitre.org/extensions/MarkingStructure#Simple-1"),
   ("snortTM", "http://stix.mitre.org/extensions/TestMechanism#Snort-1"),
   ("stix", "http://stix.mitre.org/stix-1"),
   ("stix-capec", "http://stix.mitre.org/extensions/AP#CAPEC2.7-1"),
   ("stix-ciqaddress", "http://stix.mitre.org/extensions/Address#CIQAddress3.0-1"),
   ("stix-stix-ciq", "http://stix.mitre.org/extensions/Identity#stix-ciq3.0-1"),
   ("stix-cvrf", "http://stix.mitre.org/extensions/Vulnerability#CVRF-1"),
   ("stix-maec", "http://stix.mitre.org/extensions/Malware#MAEC4.1-1"),
   ("stix-openioc", "http://stix.mitre.org/extensions/TestMechanism#OpenIOC2010-1"),
   ("stix-oval", "http://stix.mitre.org/extensions/TestMechanism#OVAL5.10-1"),
   ("stixCommon", "http://stix.mitre.org/common-1"),
   ("stixVocabs", "http://stix.mitre.org/default_vocabularies-1"),
   ("ta", "http://stix.mitre.org/ThreatActor-1"),
   ("tlpMarking", "http://data-marking.mitre.org/extensions/MarkingStructure#TLP-1"),
   ("ttp", "http://stix.mitre.org/TTP-1"),
   ("yaraTM", "http://stix.mitre.org/extensions/TestMechanism#YARA-1")]

/-- `STIX_1_1_Updater.UPDATE_SCHEMALOC_MAP` (ramrod/stix/stix_1_1.py:245-271). -/
def stix11_schemalocMap : List (String × String) :=
  [("http://data-marking.mitre.org/Marking-1",
     "http://stix.mitre.org/XMLSchema/data_marking/1.1.1/data_marking.xsd"),
   ("http://data-marking.mitre.org/extensions/MarkingStructure#Simple-1",
     "http://stix.mitre.org/XMLSchema/extensions/marking/simple/1.1.1/simple_marking.xsd"),
   ("http://data-marking.mitre.org/extensions/MarkingStructure#TLP-1",
     "http://stix.mitre.org/XMLSchema/extensions/marking/tlp/1.1.1/tlp_marking.xsd"),
   ("http://data-marking.mitre.org/extensions/MarkingStructure#Terms_Of_Use-1",
     "http://stix.mitre.org/XMLSchema/extensions/marking/terms_of_use/1.0.1/terms_of_use_marking.xsd"),
   ("http://stix.mitre.org/Campaign-1",
     "http://stix.mitre.org/XMLSchema/campaign/1.1.1/campaign.xsd"),
   ("http://stix.mitre.org/CourseOfAction-1",
     "http://stix.mitre.org/XMLSchema/course_of_action/1.1.1/course_of_action.xsd"),
   ("http://stix.mitre.org/ExploitTarget-1",
     "http://stix.mitre.org/XMLSchema/exploit_target/1.1.1/exploit_target.xsd"),
   ("http://stix.mitre.org/Incident-1",
     "http://stix.mitre.org/XMLSchema/incident/1.1.1/incident.xsd"),
   ("http://stix.mitre.org/Indicator-2",
     "http://stix.mitre.org/XMLSchema/indicator/2.1.1/indicator.xsd"),
   ("http://stix.mitre.org/TTP-1", "http://stix.mitre.org/XMLSchema/ttp/1.1.1/ttp.xsd"),
   ("http://stix.mitre.org/ThreatActor-1",
     "http://stix.mitre.org/XMLSchema/threat_actor/1.1.1/threat_actor.xsd"),
   ("http://stix.mitre.org/common-1", "http://stix.mitre.org/XMLSchema/common/1.1.1/stix_common.xsd"),
   ("http://stix.mitre.org/default_vocabularies-1",
     "http://stix.mitre.org/XMLSchema/default_vocabularies/1.1.1/stix_default_vocabularies.xsd"),
   ("http://stix.mitre.org/extensions/AP#CAPEC2.7-1",
     "http://stix.mitre.org/XMLSchema/extensions/attack_pattern/capec_2.7/1.0.1/capec_2.7_attack_pattern.xsd"),
   ("http://stix.mitre.org/extensions/Address#CIQAddress3.0-1",
     "http://stix.mitre.org/XMLSchema/extensions/address/ciq_3.0/1.1.1/ciq_3.0_address.xsd"),
   ("http://stix.mitre.org/extensions/Identity#CIQIdentity3.0-1",
     "http://stix.mitre.org/XMLSchema/extensions/identity/ciq_3.0/1.1.1/ciq_3.0_identity.xsd"),
   ("http://stix.mitre.org/extensions/Malware#MAEC4.1-1",
     "http://stix.mitre.org/XMLSchema/extensions/malware/maec_4.1/1.0.1/maec_4.1_malware.xsd"),
   ("http://stix.mitre.org/extensions/StructuredCOA#Generic-1",
     "http://stix.mitre.org/XMLSchema/extensions/structured_coa/generic/1.1.1/generic_structured_coa.xsd"),
   ("http://stix.mitre.org/extensions/TestMechanism#Generic-1",
     "http://stix.mitre.org/XMLSchema/extensions/test_mechanism/generic/1.1.1/generic_test_mechanism.xsd"),
   ("http://stix.mitre.org/extensions/TestMechanism#OVAL5.10-1",
     "http://stix.mitre.org/XMLSchema/extensions/test_mechanism/oval_5.10/1.1.1/oval_5.10_test_mechanism.xsd"),
   ("http://stix.mitre.org/extensions/TestMechanism#OpenIOC2010-1",
     "http://stix.mitre.org/XMLSchema/extensions/test_mechanism/open_ioc_2010/1.1.1/open_ioc_2010_test_mechanism.xsd"),
   ("http://stix.mitre.org/extensions/TestMechanism#Snort-1",
     "http://stix.mitre.org/XMLSchema/extensions/test_mechanism/snort/1.1.1/snort_test_mechanism.xsd"),
   ("http://stix.mitre.org/extensions/TestMechanism#YARA-1",
     "http://stix.mitre.org/XMLSchema/extensions/test_mechanism/yara/1.1.1/yara_test_mechanism.xsd"),
   ("http://stix.mitre.org/extensions/Vulnerability#CVRF-1",
     "http://stix.mitre.org/XMLSchema/extensions/vulnerability/cvrf_1.1/1.1.1/cvrf_1.1_vulnerability.xsd"),
   ("http://stix.mitre.org/stix-1", "http://stix.mitre.org/XMLSchema/core/1.1.1/stix_core.xsd")]

/-- `STIX_1_1_1_Updater.VERSION` (ramrod/stix/stix_1_1_1.py:35-35). -/
def stix111_version : String := "1.1.1"

/-- `STIX_1_1_1_Updater.NSMAP` (ramrod/stix/stix_1_1_1.py:37-63). -/
def stix111_nsmap : List (String × String) :=
  [("TOUMarking", "http://data-marking.mitre.org/extensions/MarkingStructure#Terms_Of_Use-1"),
   ("campaign", "http://stix.mitre.org/Campaign-1"),
   ("coa", "http://stix.mitre.org/CourseOfAction-1"),
   ("et", "http://stix.mitre.org/ExploitTarget-1"),
   ("genericStructuredCOA", "http://stix.mitre.org/extensions/StructuredCOA#Generic-1"),
   ("genericTM", "http://stix.mitre.org/extensions/TestMechanism#Generic-1"),
   ("incident", "http://stix.mitre.org/Incident-1"),
   ("indicator", "http://stix.mitre.org/Indicator-2"),
   ("marking", "http://data-marking.mitre.org/Marking-1"),
   ("simpleMarking", "http://data-marking.mitre.org/extensions/MarkingStructure#Simple-1"),
   ("snortTM", "http://stix.mitre.org/extensions/TestMechanism#Snort-1"),
   ("stix", "http://stix.mitre.org/stix-1"),
   ("stix-capec", "http://stix.mitre.org/extensions/AP#CAPEC2.7-1"),
   ("stix-ciqaddress", "http://stix.mitre.org/extensions/Address#CIQAddress3.0-1"),
   ("stix-stix-ciq", "http://stix.mitre.org/extensions/Identity#stix-ciq3.0-1"),
   ("stix-cvrf", "http://stix.mitre.org/extensions/Vulnerability#CVRF-1"),
   ("stix-maec", "http://stix.mitre.org/extensions/Malware#MAEC4.1-1"),
   ("stix-openioc", "http://stix.mitre.org/extensions/TestMechanism#OpenIOC2010-1"),
   ("stix-oval", "http://stix.mitre.org/extensions/TestMechanism#OVAL5.10-1"),
   ("stixCommon", "http://stix.mitre.org/common-1"),
   ("stixVocabs", "http://stix.mitre.org/default_vocabularies-1"),
   ("ta", "http://stix.mitre.org/ThreatActor-1"),
   ("tlpMarking", "http://data-marking.mitre.org/extensions/MarkingStructure#TLP-1"),
   ("ttp", "http://stix.mitre.org/TTP-1"),
   ("yaraTM", "http://stix.mitre.org/extensions/TestMechanism#YARA-1")]

/-- `STIX_1_1_1_Updater.UPDATE_SCHEMALOC_MAP` (ramrod/stix/stix_1_1_1.py:65-91). -/
def stix111_schemalocMap : List (String × String) :=
  [("http://data-marking.mitre.org/Marking-1",
     "http://stix.mitre.org/XMLSchema/data_marking/1.2/data_marking.xsd"),
   ("http://data-marking.mitre.org/extensions/MarkingStructure#Simple-1",
     "http://stix.mitre.org/XMLSchema/extensions/marking/simple/1.2/simple_marking.xsd"),
   ("http://data-marking.mitre.org/extensions/MarkingStructure#TLP-1",
     "http://stix.mitre.org/XMLSchema/extensions/marking/tlp/1.2/tlp_marking.xsd"),
   ("http://data-marking.mitre.org/extensions/MarkingStructure#Terms_Of_Use-1",
     "http://stix.mitre.org/XMLSchema/extensions/marking/terms_of_use/1.1/terms_of_use_marking.xsd"),
   ("http://stix.mitre.org/Campaign-1", "http://stix.mitre.org/XMLSchema/campaign/1.2/campaign.xsd"),
   ("http://stix.mitre.org/CourseOfAction-1",
     "http://stix.mitre.org/XMLSchema/course_of_action/1.2/course_of_action.xsd"),
   ("http://stix.mitre.org/ExploitTarget-1",
     "http://stix.mitre.org/XMLSchema/exploit_target/1.2/exploit_target.xsd"),
   ("http://stix.mitre.org/Incident-1", "http://stix.mitre.org/XMLSchema/incident/1.2/incident.xsd"),
   ("http://stix.mitre.org/Indicator-2",
     "http://stix.mitre.org/XMLSchema/indicator/2.2/indicator.xsd"),
   ("http://stix.mitre.org/TTP-1", "http://stix.mitre.org/XMLSchema/ttp/1.2/ttp.xsd"),
   ("http://stix.mitre.org/ThreatActor-1",
     "http://stix.mitre.org/XMLSchema/threat_actor/1.2/threat_actor.xsd"),
   ("http://stix.mitre.org/common-1", "http://stix.mitre.org/XMLSchema/common/1.2/stix_common.xsd"),
   ("http://stix.mitre.org/default_vocabularies-1",
     "http://stix.mitre.org/XMLSchema/default_vocabularies/1.2.0/stix_default_vocabularies.xsd"),
   ("http://stix.mitre.org/extensions/AP#CAPEC2.7-1",
     "http://stix.mitre.org/XMLSchema/extensions/attack_pattern/capec_2.7/1.1/capec_2.7_attack_pattern.xsd"),
   ("http://stix.mitre.org/extensions/Address#CIQAddress3.0-1",
     "http://stix.mitre.org/XMLSchema/extensions/address/ciq_3.0/1.2/ciq_3.0_address.xsd"),
   ("http://stix.mitre.org/extensions/Identity#CIQIdentity3.0-1",
     "http://stix.mitre.org/XMLSchema/extensions/identity/ciq_3.0/1.2/ciq_3.0_identity.xsd"),
   ("http://stix.mitre.org/extensions/Malware#MAEC4.1-1",
     "http://stix.mitre.org/XMLSchema/extensions/malware/maec_4.1/1.1/maec_4.1_malware.xsd"),
   ("http://stix.mitre.org/extensions/StructuredCOA#Generic-1",
     "http://stix.mitre.org/XMLSchema/extensions/structured_coa/generic/1.2/generic_structured_coa.xsd"),
   ("http://stix.mitre.org/extensions/TestMechanism#Generic-1",
     "http://stix.mitre.org/XMLSchema/extensions/test_mechanism/generic/1.2/generic_test_mechanism.xsd"),
   ("http://stix.mitre.org/extensions/TestMechanism#OVAL5.10-1",
     "http://stix.mitre.org/XMLSchema/extensions/test_mechanism/oval_5.10/1.2/oval_5.10_test_mechanism.xsd"),
   ("http://stix.mitre.org/extensions/TestMechanism#OpenIOC2010-1",
     "http://stix.mitre.org/XMLSchema/extensions/test_mechanism/open_ioc_2010/1.2/open_ioc_2010_test_mechanism.xsd"),
   ("http://stix.mitre.org/extensions/TestMechanism#Snort-1",
     "http://stix.mitre.org/XMLSchema/extensions/test_mechanism/snort/1.2/snort_test_mechanism.xsd"),
   ("http://stix.mitre.org/extensions/TestMechanism#YARA-1",
     "http://stix.mitre.org/XMLSchema/extensions/test_mechanism/yara/1.2/yara_test_mechanism.xsd"),
   ("http://stix.mitre.org/extensions/Vulnerability#CVRF-1",
     "http://stix.mitre.org/XMLSchema/extensions/vulnerability/cvrf_1.1/1.2/cvrf_1.1_vulnerability.xsd"),
   ("http://stix.mitre.org/stix-1", "http://stix.mitre.org/XMLSchema/core/1.2/stix_core.xsd")]

/-- `STIX_1_2_Updater.VERSION` (ramrod/stix/stix_1_2.py:12-12). -/
def stix12_version : String := "1.2"

/-- `STIX_1_2_Updater.UPDATE_NS_MAP` (ramrod/stix/stix_1_2.py:14-46). -/
def stix12_updateNsMap : List (String × String) :=
  [("http://stix.mitre.org/stix-1", "http://docs.oasis-open.org/cti/ns/stix/core-1"),
   ("http://stix.mitre.org/common-1", "http://docs.oasis-open.org/cti/ns/stix/common-1"),
   ("http://stix.mitre.org/default_vocabularies-1",
     "http://docs.oasis-open.org/cti/ns/stix/vocabularies-1"),
   ("http://stix.mitre.org/Campaign-1", "http://docs.oasis-open.org/cti/ns/stix/campaign-1"),
   ("http://stix.mitre.org/CourseOfAction-1",
     "http://docs.oasis-open.org/cti/ns/stix/course-of-action-1"),
   ("http://data-marking.mitre.org/Marking-1",
     "http://docs.oasis-open.org/cti/ns/stix/data-marking-1"),
   ("http://stix.mitre.org/ExploitTarget-1",
     "http://docs.oasis-open.org/cti/ns/stix/exploit-target-1"),
   ("http://stix.mitre.org/Incident-1", "http://docs.oasis-open.org/cti/ns/stix/incident-1"),
   ("http://stix.mitre.org/Indicator-2", "http://docs.oasis-open.org/cti/ns/stix/indicator-1"),
   ("http://stix.mitre.org/Report-1", "http://docs.oasis-open.org/cti/ns/stix/report-1"),
   ("http://stix.mitre.org/ThreatActor-1", "http://docs.oasis-open.org/cti/ns/stix/threat-actor-1"),
   ("http://stix.mitre.org/TTP-1", "http://docs.oasis-open.org/cti/ns/stix/ttp-1"),
   ("http://stix.mitre.org/extensions/Address#CIQAddress3.0-1",
     "http://docs.oasis-open.org/cti/ns/stix/extensions/address/ciq-address-3.0-1"),
   ("http://stix.mitre.org/extensions/AP#CAPEC2.7-1",
     "http://docs.oasis-open.org/cti/ns/stix/extensions/attack-pattern/capec-2.7-1"),
   ("http://stix.mitre.org/extensions/Identity#CIQIdentity3.0-1",
     "http://docs.oasis-open.org/cti/ns/stix/extensions/identity/ciq-3.0-identity-1"),
   ("http://stix.mitre.org/extensions/Malware#MAEC4.1-1",
     "http://docs.oasis-open.org/cti/ns/stix/extensions/malware/maec-4.1-1"),
   ("http://data-marking.mitre.org/extensions/MarkingStructure#Simple-1",
     "http://docs.oasis-open.org/cti/ns/stix/extensions/data-marking/simple-1"),
   ("http://data-marking.mitre.org/extensions/MarkingStructure#Terms_Of_Use-1",
     "http://docs.oasis-open.org/cti/ns/stix/extensions/data-marking/terms-of-use-1"),
   ("http://data-marking.mitre.org/extensions/MarkingStructure#TLP-1",
     "http://docs.oasis-open.org/cti/ns/stix/extensions/data-marking/tlp-1"),
   ("http://stix.mitre.org/extensions/StructuredCOA#Generic-1",
     "http://docs.oasis-open.org/cti/ns/stix/extensions/structured-coa/generic-1"),
   ("http://stix.mitre.org/extensions/TestMechanism#Generic-1",
     "http://docs.oasis-open.org/cti/ns/stix/extensions/test-mechanism/generic-1"),
   ("http://stix.mitre.org/extensions/TestMechanism#OpenIOC2010-1",
     "http://docs.oasis-open.org/cti/ns/stix/extensions/test-mechanism/openioc-2010-1"),
   ("http://stix.mitre.org/extensions/TestMechanism#OVAL5.10-1",
     "http://docs.oasis-open.org/cti/ns/stix/extensions/test-mechanism/oval-5.10-1"),
   ("http://stix.mitre.org/extensions/TestMechanism#Snort-1",
     "http://docs.oasis-open.org/cti/ns/stix/extensions/test-mechanism/snort-1"),
   ("http://stix.mitre.org/extensions/TestMechanism#YARA-1",
     "http://docs.oasis-open.org/cti/ns/stix/extensions/test-mechanism/yara-1"),
   ("http://stix.mitre.org/extensions/Vulnerability#CVRF-1",
     "http://docs.oasis-open.org/cti/ns/stix/extensions/test-mechanism/cvrf-1")]

/-- `STIX_1_2_Updater.NSMAP` (ramrod/stix/stix_1_2.py:48-50). -/
def stix12_nsmap : List (String × String) :=
  [("stix", "http://stix.mitre.org/stix-1")]

/-- `STIX_NS_1_2` (ramrod/scripts/update_ns.py:20-52); adjacent string literals are concatenated as Python does. -/
def updateNs_12 : List String :=
  ["http://stix.mitre.org/stix-1",
   "http://stix.mitre.org/common-1",
   "http://stix.mitre.org/default_vocabularies-1",
   "http://stix.mitre.org/Campaign-1",
   "http://stix.mitre.org/CourseOfAction-1",
   "http://data-marking.mitre.org/Marking-1",
   "http://stix.mitre.org/ExploitTarget-1",
   "http://stix.mitre.org/Incident-1",
   "http://stix.mitre.org/Indicator-2",
   "http://stix.mitre.org/Report-1",
   "http://stix.mitre.org/ThreatActor-1",
   "http://stix.mitre.org/TTP-1",
   "http://stix.mitre.org/extensions/Address#CIQAddress3.0-1",
   "http://stix.mitre.org/extensions/AP#CAPEC2.7-1",
   "http://stix.mitre.org/extensions/Identity#CIQIdentity3.0-1",
   "http://stix.mitre.org/extensions/Malware#MAEC4.1-1",
   "http://data-marking.mitre.org/extensions/MarkingStructure#Simple-1",
   "http://data-marking.mitre.org/extensions/MarkingStructure#Terms_Of_Use-1",
   "http://data-marking.mitre.org/extensions/MarkingStructure#TLP-1",
   "http://stix.mitre.org/extensions/StructuredCOA#Generic-1",
   "http://stix.mitre.org/extensions/TestMechanism#Generic-1http://stix.mitre.org/extensions/TestMechanism#OpenIOC2010-1",
   "http://stix.mitre.org/extensions/TestMechanism#OVAL5.10-1",
   "http://stix.mitre.org/extensions/TestMechanism#Snort-1",
   "http://stix.mitre.org/extensions/TestMechanism#YARA-1",
   "http://stix.mitre.org/extensions/Vulnerability#CVRF-1"]

/-- `STIX_NS_1_2_1` (ramrod/scripts/update_ns.py:54-86); adjacent string literals are concatenated as Python does. -/
def updateNs_121 : List String :=
  ["http://docs.oasis-open.org/cti/ns/stix/core-1",
   "http://docs.oasis-open.org/cti/ns/stix/common-1",
   "http://docs.oasis-open.org/cti/ns/stix/vocabularies-1",
   "http://docs.oasis-open.org/cti/ns/stix/campaign-1",
   "http://docs.oasis-open.org/cti/ns/stix/course-of-action-1",
   "http://docs.oasis-open.org/cti/ns/stix/data-marking-1",
   "http://docs.oasis-open.org/cti/ns/stix/exploit-target-1",
   "http://docs.oasis-open.org/cti/ns/stix/incident-1",
   "http://docs.oasis-open.org/cti/ns/stix/indicator-1",
   "http://docs.oasis-open.org/cti/ns/stix/report-1",
   "http://docs.oasis-open.org/cti/ns/stix/threat-actor-1",
   "http://docs.oasis-open.org/cti/ns/stix/ttp-1",
   "http://docs.oasis-open.org/cti/ns/stix/extensions/address/ciq-address-3.0-1",
   "http://docs.oasis-open.org/cti/ns/stix/extensions/attack-pattern/capec-2.7-1",
   "http://docs.oasis-open.org/cti/ns/stix/extensions/identity/ciq-3.0-identity-1",
   "http://docs.oasis-open.org/cti/ns/stix/extensions/malware/maec-4.1-1",
   "http://docs.oasis-open.org/cti/ns/stix/extensions/data-marking/simple-1",
   "http://docs.oasis-open.org/cti/ns/stix/extensions/data-marking/terms-of-use-1",
   "http://docs.oasis-open.org/cti/ns/stix/extensions/data-marking/tlp-1",
   "http://docs.oasis-open.org/cti/ns/stix/extensions/structured-coa/generic-1",
   "http://docs.oasis-open.org/cti/ns/stix/extensions/test-mechanism/generic-1",
   "http://docs.oasis-open.org/cti/ns/stix/extensions/test-mechanism/openioc-2010-1",
   "http://docs.oasis-open.org/cti/ns/stix/extensions/test-mechanism/oval-5.10-1",
   "http://docs.oasis-open.org/cti/ns/stix/extensions/test-mechanism/snort-1",
   "http://docs.oasis-open.org/cti/ns/stix/extensions/test-mechanism/yara-1",
   "http://docs.oasis-open.org/cti/ns/stix/extensions/test-mechanism/cvrf-1"]

/-- `OptionalNetworkPacketFields.ELEMENTS` (ramrod/cybox/cybox_2_0_1.py:118-128). -/
def packetElements : List String :=
  ["Destination_Unreachable",
   "Error_Msg",
   "Info_Msg",
   "Traceroute",
   "Source_Quench",
   "Redirect_Message",
   "Time_Exceeded",
   "Echo_Reply",
   "Echo_Request",
   "Timestamp_Request",
   "Timestamp_Reply",
   "Address_Mask",
   "Outbound_Packet_Forward_Success",
   "Outbound_Packet_no_Route",
   "Network_Redirect",
   "Host_Redirect",
   "ToS_Host_Redirect",
   "ToS_Network_Redirect",
   "TTL_Exceeded_In_Transit",
   "Frag_Reassembly_Time_Exceeded",
   "Timestamp",
   "Receive_Timestamp",
   "Transmit_Timestamp",
   "Address_Mask_Request",
   "Address_Mask_Reply",
   "IPv6_Addr",
   "IP_Addr_Prefix"]

end Ramrod.Tables

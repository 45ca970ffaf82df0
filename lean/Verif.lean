import Verif.PyStr
import Verif.Version
import Verif.Xml
import Verif.Utils
import Verif.Base
import Verif.Tables
import Verif.Cybox
import Verif.Stix
import Verif.Api
import Verif.UpdateNs
import Verif.Cli
import Verif.Spec
import Verif.Samples
import Verif.Lemmas.Tree
import Verif.Lemmas.Errors
import Verif.Lemmas.Dict
import Verif.Lemmas.Dups
import Verif.Props.Chain
import Verif.Lemmas.Root
import Verif.Props.Heap
import Verif.Props.Order
import Verif.Lemmas.Attrs
import Verif.Lemmas.Words
import Verif.Props.Release
import Verif.Props.SchemaLoc
import Verif.Lemmas.Edit
import Verif.Lemmas.Cut
import Verif.Lemmas.Types
import Verif.Props.Versions
import Verif.Props.Vocabs
import Verif.Props.Frame
import Verif.Props.Carry
import Verif.Props.Refuse
import Verif.Lemmas.Find
import Verif.Props.Untrans
import Verif.Lemmas.Clean
import Verif.Props.Clean
import Verif.Lemmas.Optional
import Verif.Props.Optional
import Verif.Lemmas.Fields
import Verif.Lemmas.Nested
import Verif.Props.Fields
import Verif.Props.StixFields
import Verif.Props.Namespaces
import Verif.Props.UpdateNs
import Verif.Props.Cli
import Verif.Props.Lists
import Verif.Props.Total
import Verif.Props.Checks
import Verif.Lemmas.Vals
import Verif.Props.Ids
import Verif.Props.Texts
import Verif.Props.Locations
import Verif.Lemmas.Relabel
import Verif.Props.Blind
import Verif.Report
import Verif.Props.Report
import Verif.Props.Blame
import Verif.Props.Forced
import Verif.Props.Documented
import Verif.Lemmas.Split
import Verif.Lemmas.Parts
import Verif.Props.Split
import Verif.Props.VocabChain
import Verif.Props.Foreign
import Verif.Props.Origin
import Verif.Props.Manual
import Verif.Props.Again
import Verif.Args
import Verif.NsArgs
import Verif.Props.Args
import Verif.Props.Lost
import Verif.Props.Options
import Verif.Props.Rename
import Verif.Props.Meaning
import Verif.Props.Unique
import Verif.Props.Comments
import Verif.Props.RootVersion
import Verif.Props.NsArgs
import Verif.Props.AgainMore
import Verif.Props.AgainStix
import Verif.Props.Resolve
import Verif.Props.White
import Verif.Props.ListsForced
import Verif.Props.ForeignForced
import Verif.Props.Switch
import Verif.Props.NewIds
import Verif.Props.Prolog
import Verif.Props.Embed
import Verif.Props.Embedded
import Verif.Props.Spelling
import Verif.Props.RootAttrs
import Verif.Props.UniqueIds
import Verif.Props.Quiet
import Verif.Props.Calls
import Verif.Props.VersionCheck
import Verif.Props.OwnVersion
import Verif.Props.NewIdsHeld
import Verif.Props.Announce
import Verif.Props.AgainRefresh
import Verif.Props.AgainRefreshStep
import Verif.Props.AgainMailslot
import Verif.Props.AgainMailslotStep
import Verif.Props.AgainStixFields
import Verif.UnitTests

import Verif.Base
import Verif.Executer
import Verif.Spec.Executer
import Verif.ExecuterLemmas
import Verif.Props.Executer
import Verif.Coroutine
import Verif.Spec.Coroutine
import Verif.Props.Coroutine
import Verif.Reactor
import Verif.Props.Reactor
import Verif.Instruct
import Verif.Cdb.Commands
import Verif.Spec.Cdb
import Verif.Spec.CdbMeaning
import Verif.Cdb.Lemmas
import Verif.Cdb.Decode
import Verif.Props.Cdb
import Verif.Spec.Instruct
import Verif.InstructLemmas
import Verif.Props.Instruct
import Verif.Platform.Layout
import Verif.Platform.LayoutLemmas
import Verif.Platform.Linux
import Verif.Platform.Win32
import Verif.Platform.Aix
import Verif.Platform.Solaris
import Verif.Platform.Tables
import Verif.Spec.Platform
import Verif.Spec.Device
import Verif.Platform.RequestLemmas
import Verif.Platform.BitLemmas
import Verif.Platform.LinuxLemmas
import Verif.CallLemmas
import Verif.Props.Linux
import Verif.Props.LinuxDevice
import Verif.Platform.Common
import Verif.Platform.SolarisLemmas
import Verif.Props.Solaris
import Verif.Platform.AixLemmas
import Verif.Props.Aix
import Verif.Platform.Win32Lemmas
import Verif.Props.Windows
import Verif.Spec.CLayout
import Verif.Props.Layout
import Verif.Contexts
import Verif.Unix
import Verif.Props.Os
import Verif.Spec.Data
import Verif.Spec.Responses
import Verif.Parse.Core
import Verif.Parse.Lemmas
import Verif.Parse.Simple
import Verif.Parse.SimpleLemmas
import Verif.Props.Responses
import Verif.Spec.Sense
import Verif.Sense.AscTable
import Verif.Sense.Model
import Verif.Props.Sense
import Verif.Props.CheckCondition
import Verif.Parse.Inquiry
import Verif.Spec.Inquiry
import Verif.Parse.InquiryLemmas
import Verif.Parse.DesignatorLemmas
import Verif.Parse.PackLemmas
import Verif.Props.Inquiry
import Verif.Props.StandardInquiry
import Verif.Parse.Ses
import Verif.Spec.Ses
import Verif.Parse.SesLemmas
import Verif.Props.Ses
import Verif.Props.Joined
import Verif.ExecuterGen
import Verif.ExecuterGenLemmas
import Verif.Platform.Generators
import Verif.Spec.Execute
import Verif.Props.Execute
import Verif.Props.ExecuteDevice
import Verif.Commands
import Verif.Props.Pages
import Verif.Spec.Disk
import Verif.Props.Disk
import Verif.ReactorShared
import Verif.Platform.Win32Async
import Verif.Spec.WindowsAsync
import Verif.Platform.Win32AsyncLemmas
import Verif.AsyncRun
import Verif.AsyncInv
import Verif.Props.WindowsAsync
import Verif.Props.WindowsAsyncFile
import Verif.Spec.Target
import Verif.Props.Target
import Verif.Parse.CutLemmas
import Verif.Parse.CutSesLemmas
import Verif.Props.Cut
import Verif.Props.Objects
import Verif.Props.ShortTransfer
import Verif.Adapter
import Verif.Props.Adapter
import Verif.Spec.Reservations
import Verif.Props.Reservations
import Verif.Spec.Mapped
import Verif.Props.Mapped
import Verif.Spec.Queue
import Verif.Props.Queue
import Verif.Props.QueueExact
import Verif.Greenlets
import Verif.Props.Greenlets
import Verif.Spec.SharedDisk
import Verif.Props.SharedDisk
import Verif.Callbacks
import Verif.Props.Callbacks
import Verif.Props.Timeouts
import Verif.Spec.Calls
import Verif.Props.Calls
import Verif.Spec.Errors
import Verif.Props.Errors
import Verif.Options
import Verif.Spec.Options
import Verif.Props.Options
import Verif.Props.OptionsBuffer
import Verif.Parse.PackPages
import Verif.Spec.PackPages
import Verif.Parse.PackPagesLemmas
import Verif.Props.PackPages
import Verif.Spec.Waits
import Verif.ReactorWaits
import Verif.ReactorWaitsLemmas
import Verif.Props.Waits
import Verif.Props.WaitsWindows
import Verif.Release
import Verif.ReleaseLemmas
import Verif.Props.Release
import Verif.Spec.Pipeline
import Verif.Platform.Win32Ahead
import Verif.Props.Pipeline
import Verif.Platform.PacketZero
import Verif.Props.QueueSize
import Verif.Spec.Durable
import Verif.Props.Durable
import Verif.Recorded
import Verif.Spec.Latest
import Verif.Platform.IoctlAhead
import Verif.Props.MappedAhead
import Verif.Sharing
import Verif.Spec.Own
import Verif.SharingLemmas
import Verif.Props.Sharing
import Verif.Spec.Several
import Verif.SeveralLemmas
import Verif.Props.Several
import Verif.Props.SeveralDisk
import Verif.Props.Hosts
import Verif.Threads
import Verif.Spec.Threads
import Verif.ThreadsLemmas
import Verif.ThreadsLock
import Verif.Props.Threads
import Verif.Spec.Heap
import Verif.Heap
import Verif.HeapLemmas
import Verif.Props.Heap
import Verif.Props.SesGeneration
import Verif.Spec.Messages
import Verif.Messages
import Verif.Props.Messages
import Verif.Spec.Names
import Verif.Names
import Verif.Props.Names
import Verif.Platform.Win32Overlapped
import Verif.Spec.Overlapped
import Verif.Props.Overlapped
import Verif.Props.Handles
import Verif.Files
import Verif.Spec.Files
import Verif.Props.Files
import Verif.Props.SelectLimit
import Verif.Spec.Cluster
import Verif.Props.Cluster
import Verif.Examples.Core
import Verif.Examples.Platforms
import Verif.Examples.Sessions
import Verif.Examples.More
import Verif.Spec.Fence
import Verif.FenceLemmas
import Verif.Props.Fencing
import Verif.Spec.Bounds
import Verif.Props.Bounds
import Verif.Props.SenseText
import Verif.Spec.Client
import Verif.Props.Client
import Verif.Props.ExtendedGroups
import Verif.Spec.Updates
import Verif.Props.Updates
import Verif.Company
import Verif.CompanyLemmas
import Verif.Props.Company
import Verif.Spec.Clone
import Verif.Props.Clone
import Verif.Spec.Patient
import Verif.Props.Patient
import Verif.Spec.Journal
import Verif.Props.Journal
import Verif.Spec.Torn
import Verif.Props.Torn
import Verif.Cdb.Constants
import Verif.Props.NamedActions
import Verif.Spec.Aborted
import Verif.Props.Aborted
import Verif.Spec.Paths
import Verif.Props.Paths
import Verif.Spec.Link
import Verif.Props.Link
import Verif.Spec.Refused
import Verif.Props.Refused
import Verif.Spec.Ports
import Verif.Props.Ports
import Verif.Spec.Ledger
import Verif.Props.Ledger
import Verif.Props.MappedPrograms
import Verif.Spec.LinkQueue
import Verif.Props.LinkQueue
import Verif.Spec.LinkSeveral
import Verif.LinkSeveralLemmas
import Verif.Props.LinkSeveral
import Verif.Spec.LinkSeveralDisk
import Verif.Props.LinkSeveralDisk
import Verif.Parse.PackResponses
import Verif.Props.PackResponses
import Verif.Props.PackStandard
import Verif.Props.PackFullStatus
import Verif.Props.MoveBack
import Verif.Spec.PipelineFaults
import Verif.Platform.Win32AheadFaults
import Verif.Props.PipelineFaults
import Verif.Spec.LatestFaults
import Verif.Platform.IoctlAheadFaults
import Verif.Props.MappedAheadFaults
import Verif.Platform.SingleAhead
import Verif.Props.SingleAhead

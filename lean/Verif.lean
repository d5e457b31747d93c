import Verif.Base.Go
import Verif.Lemmas.Fragment
import Verif.Lemmas.Frames
import Verif.Lemmas.Handler
import Verif.Lemmas.HandlerIds
import Verif.Lemmas.HandlerShape
import Verif.Lemmas.Ints
import Verif.Lemmas.Msgpack
import Verif.Model.AnyFrame
import Verif.Model.Block
import Verif.Model.Components
import Verif.Model.ConnectionEnd
import Verif.Model.Convert
import Verif.Model.Counter
import Verif.Model.CustomSections
import Verif.Model.Customer
import Verif.Model.DataReader
import Verif.Model.Decoder
import Verif.Model.Encoder
import Verif.Model.Flow
import Verif.Model.FlowResult
import Verif.Model.Flux
import Verif.Model.FluxProc
import Verif.Model.Fragment
import Verif.Model.Frames
import Verif.Model.GuestFails
import Verif.Model.Handler
import Verif.Model.HostClose
import Verif.Model.Invoke
import Verif.Model.InvokeCmd
import Verif.Model.Kept
import Verif.Model.Lookup
import Verif.Model.Mesh
import Verif.Model.MeshClose
import Verif.Model.MeshStart
import Verif.Model.MeshSystem
import Verif.Model.Mono
import Verif.Model.Operations
import Verif.Model.OwnHandlers
import Verif.Model.ReaderCalls
import Verif.Model.Records
import Verif.Model.Scanner
import Verif.Model.Small
import Verif.Model.Startup
import Verif.Model.System
import Verif.Model.TcpConn
import Verif.Model.TcpServer
import Verif.Model.TcpSystem
import Verif.Model.Transforms
import Verif.Model.Transport
import Verif.Model.Typed
import Verif.Model.Unbounded
import Verif.Model.Uppercase
import Verif.Model.Uuid
import Verif.Model.Wasm
import Verif.Model.WasmBuffers
import Verif.Model.WasmLink
import Verif.Model.WasmRecv
import Verif.Model.WasmSystem
import Verif.Props.Block
import Verif.Props.Components
import Verif.Props.ConnectionEnd
import Verif.Props.ConnectionIds
import Verif.Props.Convert
import Verif.Props.Counter
import Verif.Props.CustomSections
import Verif.Props.DemandSteps
import Verif.Props.Flow
import Verif.Props.FlowExact
import Verif.Props.FlowResult
import Verif.Props.Flux
import Verif.Props.FluxProc
import Verif.Props.Fragment
import Verif.Props.Frames
import Verif.Props.Frames2
import Verif.Props.GuestFails
import Verif.Props.Handler
import Verif.Props.HandlerCalls
import Verif.Props.HandlerDemand
import Verif.Props.HandlerDispatch
import Verif.Props.HandlerImport
import Verif.Props.HandlerReplies
import Verif.Props.HandlerSafe
import Verif.Props.HostClose
import Verif.Props.InputSeen
import Verif.Props.InputSent
import Verif.Props.Invoke
import Verif.Props.InvokeCmd
import Verif.Props.Isolation
import Verif.Props.Kept
import Verif.Props.Lookup
import Verif.Props.LookupExact
import Verif.Props.MappedBlock
import Verif.Props.Mesh
import Verif.Props.MeshAsked
import Verif.Props.MeshCalls
import Verif.Props.MeshCancel
import Verif.Props.MeshClose
import Verif.Props.MeshDemand
import Verif.Props.MeshNames
import Verif.Props.MeshStreams
import Verif.Props.MeshSubs
import Verif.Props.Mono
import Verif.Props.MonoNotify
import Verif.Props.MsgpackAny
import Verif.Props.MsgpackBounds
import Verif.Props.MsgpackColl
import Verif.Props.MsgpackExt
import Verif.Props.MsgpackFloatKeys
import Verif.Props.MsgpackForeign
import Verif.Props.MsgpackForms
import Verif.Props.MsgpackInts
import Verif.Props.MsgpackKeys
import Verif.Props.MsgpackKinds
import Verif.Props.MsgpackOverflow
import Verif.Props.MsgpackSafety
import Verif.Props.MsgpackScalars
import Verif.Props.MsgpackSizer
import Verif.Props.MsgpackSkip
import Verif.Props.MsgpackSkipEnds
import Verif.Props.MsgpackTimes
import Verif.Props.NewCustomer
import Verif.Props.Operations
import Verif.Props.OwnHandlers
import Verif.Props.ProcessorBlock
import Verif.Props.ProcessorSubs
import Verif.Props.Records
import Verif.Props.Scanner
import Verif.Props.SliceResponse
import Verif.Props.Slices
import Verif.Props.Small
import Verif.Props.SmallResults
import Verif.Props.Startup
import Verif.Props.StreamDetails
import Verif.Props.StreamSeen
import Verif.Props.StreamSent
import Verif.Props.System
import Verif.Props.SystemAgain
import Verif.Props.SystemAnswer
import Verif.Props.SystemCalls
import Verif.Props.SystemCancel
import Verif.Props.SystemDemand
import Verif.Props.SystemEnd
import Verif.Props.SystemFnf
import Verif.Props.SystemHandled
import Verif.Props.SystemIds
import Verif.Props.SystemInput
import Verif.Props.SystemInputCancel
import Verif.Props.SystemInputDemand
import Verif.Props.SystemServe
import Verif.Props.SystemStreams
import Verif.Props.TcpCalls
import Verif.Props.TcpConn
import Verif.Props.TcpServer
import Verif.Props.TcpSystem
import Verif.Props.Transforms
import Verif.Props.Transport
import Verif.Props.Truncated
import Verif.Props.TypedCalls
import Verif.Props.TypedChannels
import Verif.Props.TypedMemory
import Verif.Props.TypedStreams
import Verif.Props.Unbounded
import Verif.Props.Uppercase
import Verif.Props.Uuid
import Verif.Props.UuidTime
import Verif.Props.WasmBuffers
import Verif.Props.WasmCalls
import Verif.Props.WasmCancel
import Verif.Props.WasmDemand
import Verif.Props.WasmEnds
import Verif.Props.WasmInput
import Verif.Props.WasmInputDemand
import Verif.Props.WasmLink
import Verif.Props.WasmMemory
import Verif.Props.WasmRecv
import Verif.Props.WasmSim
import Verif.Props.WasmStreams
import Verif.Props.WasmSystem
import Verif.Props.WordCounts
import Verif.Spec.Msgpack
import Verif.Spec.MsgpackEmit
import Verif.Spec.MsgpackValue
import Verif.Spec.OpTable
import Verif.Spec.Reassembly
import Verif.Spec.Wire

import Verif.Props.Ints
import Verif.Props.Floats
import Verif.Props.Uuids
import Verif.Props.Fields
import Verif.Props.ZeroCoding
import Verif.Props.Headers
import Verif.Props.Transmit
import Verif.Props.Serialize
import Verif.Props.Deserialize
import Verif.Props.Circuit
import Verif.Props.Reliability
import Verif.Props.Events
import Verif.Props.EventQueue
import Verif.Props.Manager
import Verif.Props.Coroutines
import Verif.Props.Buffer
import Verif.Props.Caps
import Verif.Props.Helpers
import Verif.Props.Templates
import Verif.Props.MessageApi
import Verif.Props.Render
import Verif.Props.Layout
import Verif.Props.EndToEnd
import Verif.Props.Rounding
import Verif.Props.QuatWire
import Verif.Props.Datatypes
import Verif.Props.Wait
import Verif.Props.System
import Verif.Props.Arithmetic
import Verif.Props.PackedFloat
import Verif.Props.Pair
import Verif.Props.Storm
import Verif.Props.Objects
import Verif.Props.Describe
import Verif.Props.Confirm
import Verif.Props.SerializeErrors
import Verif.Props.Reading
import Verif.Props.CapErrors
import Verif.Props.Switching
import Verif.Props.Builder
import Verif.Props.Default
import Verif.Props.DeserializeErrors
import Verif.Props.Progress
import Verif.Props.Network
import Verif.Props.Delivery
import Verif.Props.EventServer
import Verif.Props.Exhaustion
import Verif.Props.Distance
import Verif.Props.Ascii
import Verif.Props.VectorLengths
import Verif.Props.Isolation
import Verif.Props.Printing
import Verif.Props.Logging
import Verif.Props.Http
import Verif.Props.EqLogging
import Verif.Props.Received
import Verif.Props.DefaultPair
import Verif.Props.EqHttp
import Verif.Props.EqSubscribers
import Verif.Props.UdpSubscribers
import Verif.Props.UdpExact
import Verif.Props.UdpDeferred
import Verif.Props.BothRoads
import Verif.Props.RegionEvents
import Verif.Props.EventSoon
import Verif.Props.Overlap
import Verif.Props.OverlapAlone
import Verif.Props.ReceivedSubs
import Verif.Props.Outgoing
import Verif.Props.OutgoingAcks
import Verif.Props.OutgoingArrives
import Verif.Props.Callbacks
import Verif.Props.Unnoticed
import Verif.Conformance

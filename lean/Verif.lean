import Verif.Go
import Verif.Lemmas.Built
import Verif.Lemmas.Controller
import Verif.Lemmas.Database
import Verif.Lemmas.Encoding
import Verif.Lemmas.Fields
import Verif.Lemmas.Handler
import Verif.Lemmas.Heap
import Verif.Lemmas.HeapParse
import Verif.Lemmas.Message
import Verif.Lemmas.Node
import Verif.Lemmas.Object
import Verif.Lemmas.Parser
import Verif.Lemmas.Pointers
import Verif.Lemmas.Post
import Verif.Lemmas.PropertyMap
import Verif.Lemmas.Reader
import Verif.Lemmas.RoundTrip
import Verif.Lemmas.SendRace
import Verif.Lemmas.Shutdown
import Verif.Lemmas.ShutdownReply
import Verif.Lemmas.ShutdownRuns
import Verif.Lemmas.ShutdownStart
import Verif.Lemmas.Stream
import Verif.Lemmas.Tcp
import Verif.Lemmas.Transport
import Verif.Lemmas.TransportStart
import Verif.Model.Accesses
import Verif.Model.AddRace
import Verif.Model.Address
import Verif.Model.Addresses
import Verif.Model.AnnounceRace
import Verif.Model.Built
import Verif.Model.Callbacks
import Verif.Model.Class
import Verif.Model.Cmd
import Verif.Model.Config
import Verif.Model.Controller
import Verif.Model.ControllerRace
import Verif.Model.CtrlLive
import Verif.Model.DataRace
import Verif.Model.Database
import Verif.Model.DatabaseManufacturers
import Verif.Model.DatabaseMra
import Verif.Model.Encoding
import Verif.Model.Esv
import Verif.Model.Handler
import Verif.Model.Heap
import Verif.Model.Interface
import Verif.Model.InterfaceFamily
import Verif.Model.Light
import Verif.Model.ListMem
import Verif.Model.ListRace
import Verif.Model.Listing
import Verif.Model.LiveNetwork
import Verif.Model.MapRace
import Verif.Model.Mesh
import Verif.Model.Message
import Verif.Model.Nested
import Verif.Model.Network
import Verif.Model.Node
import Verif.Model.NodeEnds
import Verif.Model.NodeOptions
import Verif.Model.NodePost
import Verif.Model.Object
import Verif.Model.Parent
import Verif.Model.Parser
import Verif.Model.Pointers
import Verif.Model.Post
import Verif.Model.PostTime
import Verif.Model.PostTool
import Verif.Model.Print
import Verif.Model.Program
import Verif.Model.Property
import Verif.Model.ReadBuffer
import Verif.Model.Reader
import Verif.Model.Receive
import Verif.Model.Request
import Verif.Model.RestartSend
import Verif.Model.Retry
import Verif.Model.Scan
import Verif.Model.Search
import Verif.Model.SearchStorm
import Verif.Model.SendRace
import Verif.Model.Serve
import Verif.Model.Settings
import Verif.Model.Shutdown
import Verif.Model.Socket
import Verif.Model.Source
import Verif.Model.StartRace
import Verif.Model.StdDatabase
import Verif.Model.SuperObject
import Verif.Model.Tcp
import Verif.Model.TcpTime
import Verif.Model.Text
import Verif.Model.Tid
import Verif.Model.Tools
import Verif.Model.Transport
import Verif.Props.Accesses
import Verif.Props.AddRace
import Verif.Props.AddRaceAll
import Verif.Props.AddTwice
import Verif.Props.Address
import Verif.Props.AddressText
import Verif.Props.Addresses
import Verif.Props.Announce
import Verif.Props.AnnounceRace
import Verif.Props.Arrival
import Verif.Props.Binding
import Verif.Props.BoundExactly
import Verif.Props.BoundFollows
import Verif.Props.BoundSelf
import Verif.Props.Callbacks
import Verif.Props.Class
import Verif.Props.Codec
import Verif.Props.Codes
import Verif.Props.Commands
import Verif.Props.Config
import Verif.Props.Controller
import Verif.Props.ControllerRace
import Verif.Props.CtrlLive
import Verif.Props.DataRace
import Verif.Props.Datagram
import Verif.Props.Device
import Verif.Props.Discovery
import Verif.Props.Exchange
import Verif.Props.Fresh
import Verif.Props.Handler
import Verif.Props.Heap
import Verif.Props.Heard
import Verif.Props.Hex
import Verif.Props.Inner
import Verif.Props.Interface
import Verif.Props.InterfaceFamily
import Verif.Props.Joined
import Verif.Props.Leaked
import Verif.Props.Light
import Verif.Props.LightOutput
import Verif.Props.ListMem
import Verif.Props.ListRace
import Verif.Props.Listing
import Verif.Props.LiveNetwork
import Verif.Props.LiveWrite
import Verif.Props.MapRace
import Verif.Props.Mesh
import Verif.Props.Mirror
import Verif.Props.Moments
import Verif.Props.Nested
import Verif.Props.NestedChain
import Verif.Props.Network
import Verif.Props.NetworkRead
import Verif.Props.NetworkWrite
import Verif.Props.Node
import Verif.Props.NodeEnds
import Verif.Props.NodeOptions
import Verif.Props.NodePost
import Verif.Props.Notified
import Verif.Props.Object
import Verif.Props.ObjectCodes
import Verif.Props.Once
import Verif.Props.Output
import Verif.Props.Parent
import Verif.Props.Pointers
import Verif.Props.Ports
import Verif.Props.Post
import Verif.Props.PostAgrees
import Verif.Props.PostAnytime
import Verif.Props.PostMet
import Verif.Props.PostSequence
import Verif.Props.PostTime
import Verif.Props.PostTool
import Verif.Props.Print
import Verif.Props.Profile
import Verif.Props.Program
import Verif.Props.Property
import Verif.Props.ReadBack
import Verif.Props.ReadBuffer
import Verif.Props.Receive
import Verif.Props.Request
import Verif.Props.RestartSend
import Verif.Props.Retry
import Verif.Props.RoundTrip
import Verif.Props.RoundTripTcp
import Verif.Props.Scan
import Verif.Props.Search
import Verif.Props.SearchStorm
import Verif.Props.SearchTime
import Verif.Props.SelfFound
import Verif.Props.SendRace
import Verif.Props.Sending
import Verif.Props.Sequences
import Verif.Props.Serve
import Verif.Props.ServeCalls
import Verif.Props.ServeEnds
import Verif.Props.ServeOrder
import Verif.Props.Service
import Verif.Props.Settings
import Verif.Props.SharedDatabase
import Verif.Props.Shutdown
import Verif.Props.Sizes
import Verif.Props.Socket
import Verif.Props.Source
import Verif.Props.SourcePort
import Verif.Props.Stalled
import Verif.Props.StartRace
import Verif.Props.Stream
import Verif.Props.Table
import Verif.Props.Tcp
import Verif.Props.TcpTime
import Verif.Props.Text
import Verif.Props.Tid
import Verif.Props.TidBound
import Verif.Props.Tools
import Verif.Props.Transport
import Verif.Props.Wire
import Verif.Spec.Cmd
import Verif.Spec.Controller
import Verif.Spec.Esv
import Verif.Spec.GoMemory
import Verif.Spec.Handler
import Verif.Spec.Heap
import Verif.Spec.Lenient
import Verif.Spec.ListMem
import Verif.Spec.Object
import Verif.Spec.Pointers
import Verif.Spec.Post
import Verif.Spec.PropertyMap
import Verif.Spec.RestartSend
import Verif.Spec.SendRace
import Verif.Spec.Shutdown
import Verif.Spec.Stream
import Verif.Spec.Tcp
import Verif.Spec.Wire

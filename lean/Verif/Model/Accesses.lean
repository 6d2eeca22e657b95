import Verif.Spec.GoMemory

/-!
# Which fields the calls of a node use (`net/echonet/local_node.go`, `local_node_msssage.go`, `transport/`)

For each call of the API, and for each goroutine the library starts, the fields of the node that are read and written,
in the order of the code, with the `go` statements, the mutex and the channel. Values are left out: which branch is
taken is a parameter. The data of the properties of the objects are places too, the others of their fields are left
out. One interface, and messages from the node itself enabled, as by default. TCP is disabled, as by default, except in
the calls named so. A socket has the number of the goroutine that receives from it. Calls are those that succeed, and
`Start` is called on a node that is stopped.
Closing `postResponseCh` is no act, as nobody receives from it any more, and all posts share channel 0, which only puts
more events before others. The channels `Stop` closes are left out: a loop that receives from one does nothing more. A
handler that finds a post waiting for another message is left out.
-/

namespace Verif.Model
open Verif.Spec

/-- The fields of a local node (net/echonet/local_node.go:74-85), of its lists of objects (base_node.go:18-21), of the
managers below it (transport/unicast_manager.go:15-21, multicast_manager.go:14-17, multicast_server.go:17-22, the last
for each multicast server), of socket `s`, what it is bound to (socket.go:16-20) and its connection
(udp_socket.go:21) or listener (tcp_socket.go:24), the data of property `k` of its objects, and the list of a
controller (controller.go:50). -/
inductive Field where
  | config | transport | manufacturer | lastTID | postCh | postReq | listener | devices | profiles
  | servers | multicasts | port | reply (m : Nat) | bound (s : Nat) | conn (s : Nat) | data (k : Nat) | found
deriving DecidableEq, Repr

/-- `NextTID` (local_node.go:169-176): lines 170, 171 or 173, and 175. -/
def tidActs : List (Act Field) := [.rd .lastTID, .wr .lastTID, .rd .lastTID]

/-- `IsRunning` (transport/message_manager.go:146-156). -/
def runningActs : List (Act Field) := [.rd .servers, .rd .multicasts]

/-- `SendBytes` of socket `s` (transport/udp_socket.go:72-105): lines 80, 81 and 82, the last for the log. -/
def socketActs (s : Nat) : List (Act Field) := [.rd (.conn s), .rd (.conn s), .rd (.bound s)]

/-- `SendMessage` over socket `u` (local_node_msssage.go:76-91; transport/unicast_manager.go:155-168). -/
def sendActs (u : Nat) : List (Act Field) := runningActs ++ tidActs ++ [.rd .profiles, .rd .servers] ++ socketActs u

/-- `AnnounceMessage` over socket `u` (local_node_msssage.go:26-33; transport/unicast_manager.go:171-184;
udp_socket.go:113-124). -/
def multicastActs (u : Nat) : List (Act Field) := runningActs ++ tidActs ++ [.rd .servers, .rd (.bound u)] ++ socketActs u

/-- `AnnounceProperty` of property `k` (local_node_msssage.go:36-42). -/
def announceActs (u k : Nat) : List (Act Field) := .rd (.data k) :: multicastActs u

/-- `PostMessage` over UDP (local_node_msssage.go:157-201): TCPEnabled, Lock, the two fields, SendMessage, the
channel and `RequestTimeout` for the select, the receive if there is an answer, `closeResponseChannel` and Unlock. -/
def postActs (u : Nat) (answered : Bool) : List (Act Field) :=
  [.rd .config, .lock 0, .wr .postCh, .wr .postReq] ++ sendActs u ++ [.rd .postCh, .rd .config]
    ++ (if answered then [.recv 0] else [])
    ++ [.rd .postCh, .rd .postCh, .wr .postCh, .wr .postReq, .unlock 0]

/-- `Stop` of servers with the given sockets (local_node.go:210-215; transport/message_manager.go:130-143): `Close` of
each (udp_socket.go:50-59), and the lists. -/
def stopActs (us ms : List Nat) : List (Act Field) :=
  .rd .multicasts :: ms.flatMap (fun m => [.rd (.conn m), .wr (.conn m)]) ++ [.wr .multicasts]
    ++ .rd .servers :: us.flatMap (fun u => [.rd (.conn u), .wr (.conn u)]) ++ [.wr .servers]

/-- `Start` (local_node.go:195-207; transport/message_manager.go:101-127) with goroutine `u` for the unicast server and
`m` for the multicast server: `Stop`; `UnicastManager.Start` (unicast_manager.go:50-113), which binds the socket
(unicast_udp_socket.go:30-61), starts the loop (unicast_server.go:69), sets what the socket is bound to once more (line
81) and puts the server on the list; `MulticastManager.Start` (multicast_manager.go:46-83), with multicast_socket.go:28-67
and multicast_server.go:52; `setUnicastManager` (multicast_manager.go:107-117); `SetPort`; and `Announce`
(local_node_msssage.go:45-59), whose property is number 0. -/
def startActs (u m : Nat) : List (Act Field) :=
  stopActs [] []
    ++ [.rd .servers, .wr .servers, .rd .port, .rd .transport, .rd (.conn u), .wr (.conn u), .rd (.conn u),
      .wr (.bound u), .go u, .wr (.bound u), .rd .servers, .wr .servers, .wr .port]
    ++ [.rd .multicasts, .wr .multicasts, .rd (.conn m), .wr (.conn m), .wr (.bound m), .rd (.conn m), .go m,
      .rd .multicasts, .wr .multicasts]
    ++ [.rd .multicasts, .rd .servers, .wr (.reply m), .rd .port, .wr .port]
    ++ [.rd .profiles] ++ announceActs u 0

/-- `SendMessage` when TCP is enabled (transport/unicast_server.go:46-54; tcp_socket.go:120-126, 179-211): what the socket
is bound to is read before the connection is made (line 187), and the message goes over UDP if that fails. -/
def sendTcpActs (u c : Nat) (ok : Bool) : List (Act Field) :=
  runningActs ++ tidActs ++ [.rd .profiles, .rd .servers, .rd (.bound c)] ++ (if ok then [] else socketActs u)

/-- `PostMessage` over TCP, when it is answered (local_node_msssage.go:94-109, 157-172;
transport/unicast_manager.go:187-206; tcp_socket.go:129-144, with the log of line 110): without the lock, which is for
UDP only. -/
def postTcpActs (c : Nat) : List (Act Field) :=
  .rd .config :: runningActs ++ tidActs
    ++ [.rd .profiles, .rd .transport, .rd .servers, .rd .transport, .rd (.bound c), .rd (.bound c)]

/-- `Start` when TCP is enabled, with goroutine `c` for the listener (transport/unicast_server.go:71-78;
tcp_socket.go:39-67): between the loop of the unicast server and the second write of what its socket is bound to. -/
def startTcpActs (u c m : Nat) : List (Act Field) :=
  stopActs [] []
    ++ [.rd .servers, .wr .servers, .rd .port, .rd .transport, .rd (.conn u), .wr (.conn u), .rd (.conn u),
      .wr (.bound u), .go u]
    ++ [.rd (.conn c), .wr (.conn c), .rd (.conn c), .wr (.bound c), .go c]
    ++ [.wr (.bound c), .wr (.bound u), .rd .servers, .wr .servers, .wr .port]
    ++ [.rd .multicasts, .wr .multicasts, .rd (.conn m), .wr (.conn m), .wr (.bound m), .rd (.conn m), .go m,
      .rd .multicasts, .wr .multicasts]
    ++ [.rd .multicasts, .rd .servers, .wr (.reply m), .rd .port, .wr .port]
    ++ [.rd .profiles] ++ announceActs u 0

/-- The calls a program makes on a node or controller, and its own `go` statements. -/
inductive NodeCall where
  | setConfig | setManufacturer | manufacturer | setListener | listener | lastTID | nextTID | addDevice | getDevices
  | setData (k : Nat) | getData (k : Nat) | announce (u k : Nat) | send (u : Nat) | post (u : Nat) (answered : Bool)
  | start (u m : Nat) | stop (us ms : List Nat) | search (u : Nat) | nodes | clear | go (g : Nat)
  | sendTcp (u c : Nat) (ok : Bool) | postTcp (c : Nat) | startTcp (u c m : Nat)
deriving DecidableEq, Repr

/-- What each call does: `SetConfig` (local_node.go:132-135), `SetManufacturerCode` (138-146, without the objects),
`ManufacturerCode` (149-151), `SetListener` (154-156), `Listener` (159-161), `LastTID` (164-166), `NextTID` (169-176),
`AddDevice` (179-184, 231-288, base_node.go:33-35; the instance list is property 0), `Devices` (base_node.go:38-40),
`SetData` and `Data` of a property (property.go), and of a controller `Nodes` and `Clear` (controller.go:85-87,
146-149). `search` is `SearchAllObjects`
(controller.go:100-109; local_node_msssage.go:26-33). -/
def NodeCall.acts : NodeCall → List (Act Field)
  | .setConfig => [.wr .config, .wr .transport]
  | .setManufacturer => [.wr .manufacturer, .rd .devices, .rd .profiles]
  | .manufacturer => [.rd .manufacturer]
  | .setListener => [.wr .listener]
  | .listener => [.rd .listener]
  | .lastTID => [.rd .lastTID]
  | .nextTID => tidActs
  | .addDevice => [.rd .devices, .wr .devices, .rd .manufacturer, .rd .profiles, .rd .devices, .rd .profiles,
      .rd .devices, .rd .devices, .wr (.data 0)]
  | .getDevices => [.rd .devices]
  | .setData k => [.wr (.data k)]
  | .getData k => [.rd (.data k)]
  | .announce u k => announceActs u k
  | .send u => sendActs u
  | .post u answered => postActs u answered
  | .start u m => startActs u m
  | .stop us ms => stopActs us ms
  | .search u => multicastActs u
  | .nodes => [.rd .found]
  | .clear => [.wr .found]
  | .go g => [.go g]
  | .sendTcp u c ok => sendTcpActs u c ok
  | .postTcp c => postTcpActs c
  | .startTcp u c m => startTcpActs u c m

/-- A message as its handler sees it: the socket it came over, whether that is one of a multicast server, whether the
message is the answer a post waits for, whether it makes a node known to a controller, the properties it asks for, and
the socket over which it is answered. -/
structure MsgHandler where
  sock : Nat
  multi : Bool
  answer : Bool
  adds : Bool
  props : List Nat
  reply : Option Nat
deriving DecidableEq, Repr

/-- `ProtocolMessageReceived` (local_node_message_handler.go:13-46): line 14; `isResponseMessageWaiting`,
`isResponseMessage` and `setResponseMessage` (local_node_msssage.go:112-144); `validateReceivedMessage` and
`executeMessageListeners` (48-141), with `addNode` of a controller (controller_message_listener.go:88-100);
and `createResponseMessageForRequestMessage` (144-164). -/
def MsgHandler.receives (h : MsgHandler) : List (Act Field) :=
  [.rd .config, .rd .postReq]
    ++ (if h.answer then [.rd .postCh, .rd .postReq, .rd .postCh, .rd .postReq, .rd .postReq, .rd .postReq, .rd .postCh,
          .rd .postCh, .send 0, .sent 0] else [])
    ++ [.rd .devices, .rd .profiles, .rd .devices, .rd .profiles, .rd .listener]
    ++ (if h.adds then [.rd .found, .rd .found, .wr .found] else [])
    ++ [.rd .devices, .rd .profiles] ++ h.props.map (fun k => .rd (.data k))

/-- `handleUnicastUDPRequestMessage` (transport/unicast_server.go:107-120) and `handleMulticastRequestMessage`
(multicast_server.go:64-77): the log, the node, line 72 of the latter, and the answer. A message over TCP
(unicast_server.go:139-158; tcp_socket.go:86-113) is not multicast, and has `reply` none, as the answer goes over the
connection it came from, which no other goroutine uses. -/
def MsgHandler.acts (h : MsgHandler) : List (Act Field) :=
  .rd (.bound h.sock) :: h.receives ++ (if h.multi then [.rd (.reply h.sock)] else [])
    ++ (match h.reply with
        | some u => socketActs u
        | none => [])

/-- The goroutines: those of the program, of which some are careful and hold a mutex of the program while they make a
call, the loops that receive from socket `s` and start a handler for each message, the loop that accepts TCP
connections from listener `s` and starts a handler for each, and the handlers. -/
inductive Goroutine where
  | program (calls : List NodeCall)
  | careful (calls : List NodeCall)
  | loop (s : Nat) (handlers : List Nat) (closes : Bool)
  | accepts (s : Nat) (handlers : List Nat)
  | handler (h : MsgHandler)
deriving DecidableEq, Repr

/-- What a goroutine does. The mutex of the program is number 1. A loop (transport/unicast_server.go:122-137,
multicast_server.go:79-95) reads the connection for each message (udp_socket.go:128, 132), the last time in vain. The
loop of a multicast server that ends closes the socket (multicast_server.go:80). The loop for TCP (unicast_server.go:160-173) reads the listener for each
connection. The buffer of the socket is left out, as only its loop uses it. -/
def Goroutine.code : Goroutine → List (Act Field)
  | .program calls => calls.flatMap NodeCall.acts
  | .careful calls => calls.flatMap (fun c => .lock 1 :: c.acts ++ [.unlock 1])
  | .loop s hs closes => hs.flatMap (fun h => [.rd (.conn s), .rd (.conn s), .go h]) ++ [.rd (.conn s), .rd (.conn s)]
      ++ (if closes then [.rd (.conn s), .wr (.conn s)] else [])
  | .accepts s hs => hs.flatMap (fun h => [.rd (.conn s), .go h]) ++ [.rd (.conn s)]
  | .handler h => h.acts

end Verif.Model

import Verif.Model.Handler

/-!
# Model of `net/echonet/remote_node.go`, `controller.go` and `controller_message_listener.go`

The controller embeds a local node whose node listener it is. Its own listener is user code: what
it does to the local node is decided by the environment (`Env.behave` on `Call.message`); that it also
starts, stops or clears the controller or sets another listener is in Verif.Model.CtrlLive.
-/

namespace Verif.Model
open Verif.Spec

/-- transport/const.go:13 -/ def udpPort : Nat := 3610
/-- node_profile.go:27 -/ def instanceListNotification : Byte := 0xD5
/-- node_profile.go:28 -/ def selfNodeInstanceListS : Byte := 0xD6

/-- `remoteNode` (remote_node.go:21-26) with `baseNode` (base_node.go:18-21). -/
structure RemoteNode where
  address : String
  port : Nat
  devices : List Obj
  profiles : List Obj
deriving DecidableEq, Repr

namespace RemoteNode

/-- `newRemoteNode` (remote_node.go:29-37). -/
def new : RemoteNode := ⟨"", 0, [], []⟩

/-- `remoteNode.AddDevice` (remote_node.go:148-151). -/
def addDevice (n : RemoteNode) (o : Obj) : RemoteNode := { n with devices := n.devices ++ [o] }

/-- `remoteNode.AddProfile` (remote_node.go:154-157). -/
def addProfile (n : RemoteNode) (o : Obj) : RemoteNode := { n with profiles := n.profiles ++ [o] }

/-- `nodeEquals` (node.go:40-48), `remoteNode.Equals` (remote_node.go:160-162). -/
def equals (a b : RemoteNode) : Bool :=
  if a.port ≠ b.port then false
  else if a.address ≠ b.address then false
  else true

/-- Go `copy(dst, src)`: the first `min` bytes. -/
def copyBytes (dst src : Bytes) : Bytes := src.take dst.length ++ dst.drop src.length

/-- One pass of the loop (remote_node.go:93-104): a `*profile` is a `Profile`; a `*device` is not,
having no `IsNodeProfile`. -/
def addInstance (db : StdDB) (data : Bytes) (i : Nat) (n : RemoteNode) : Res RemoteNode := do
  let codes := copyBytes (List.replicate objectCodeSize 0) (← sliceFrom data (i * objectCodeSize + 1))
  let c ← ObjectCode.fromBytes codes
  if (← rd codes 0) == 0x0E then
    .ok (n.addProfile (Obj.newProfileWithCode db c))
  else do
    let o ← Obj.newDeviceWithCode db c
    .ok (n.addDevice o)

/-- `newRemoteNodeWithInstanceListMessage` (remote_node.go:48-110). -/
def ofInstanceList (db : StdDB) (m : Message) : Res RemoteNode := do
  if m.getOPC < 1 then .err .invalid
  else
    match ← m.property 0 with
    | none => .err .invalid
    | some p =>
      if p.code ≠ instanceListNotification ∧ p.code ≠ selfNodeInstanceListS then .err .invalid
      else if p.data.length = 0 then .err .invalid
      else do
        let count := (← rd p.data 0).toNat
        if p.data.length < count * objectCodeSize + 1 then .err .invalid
        else do
          let n : RemoteNode := { new with address := m.src.ip, port := m.src.port }
          let n := n.addProfile (Obj.newNodeProfile db)
          let n ← forRange count (addInstance db p.data) n
          .ok (n.addProfile (Obj.newNodeProfile db))

/-- `newRemoteNodeWithInstanceListMessageAndConfig` (remote_node.go:113-125); `autoPort` is
`AutoPortBindingEnabled`. -/
def ofInstanceListAndConfig (db : StdDB) (autoPort : Bool) (m : Message) : Res RemoteNode := do
  let n ← ofInstanceList db m
  if !autoPort then .ok { n with port := udpPort } else .ok n

end RemoteNode

/-- A call of the controller listener (controller_listener.go). -/
inductive CtrlCall where
  | newNode (n : RemoteNode)     -- ControllerNewNodeFound
  | message (m : Message)        -- ControllerMessageReceived
deriving DecidableEq, Repr

/-- `controller` (controller.go:48-52). `servers` are the addresses of the multicast servers that
have one (`isSelfMessage`), set by `Start` and `Stop`; `autoPort` is the configuration. -/
structure Ctrl where
  node : Node
  found : List RemoteNode
  listener : Bool
  servers : List Addr
  autoPort : Bool
deriving DecidableEq, Repr

namespace Ctrl

/-- `newController` (controller.go:66-77) without options. -/
def new (db : StdDB) : Ctrl := ⟨Node.new db, [], false, [], false⟩

/-- `controller.isSelfMessage` (controller_message_listener.go:17-37). -/
def isSelfMessage (c : Ctrl) (m : Message) : Bool :=
  c.servers.any (fun a => !(m.src.port ≠ a.port) && !(m.src.ip ≠ a.ip))

/-- `controller.addNode` (controller_message_listener.go:88-100). -/
def addNode (c : Ctrl) (n : RemoteNode) : Ctrl × List CtrlCall :=
  if c.found.any n.equals then (c, [])
  else ({ c with found := c.found ++ [n] }, if c.listener then [.newNode n] else [])

/-- `controller.parseNodeProfileMessage` (controller_message_listener.go:72-85). -/
def parseNodeProfileMessage (db : StdDB) (c : Ctrl) (m : Message) : Res (Ctrl × List CtrlCall) :=
  if !c.node.selfMsg && c.isSelfMessage m then .ok (c, [])
  else
    match RemoteNode.ofInstanceListAndConfig db c.autoPort m with
    | .panic => .panic
    | .err _ => .ok (c, [])
    | .ok n => .ok (c.addNode n)

/-- `isNodeProfileMessage` (controller_message_listener.go:50-58). -/
def isNodeProfileMessage (m : Message) : Bool :=
  if !m.esv.isNotification && !m.esv.isReadResponse then false
  else if !Obj.isNodeProfileObjectCode m.getDEOJ then false
  else true

/-- `controller.OnMessage` (controller_message_listener.go:40-69); it returns no error. -/
def onMessage (db : StdDB) (c : Ctrl) (m : Message) : Res (Ctrl × List CtrlCall) :=
  if !c.node.selfMsg && c.isSelfMessage m then .ok (c, [])
  else do
    let (c, calls) ← if isNodeProfileMessage m then c.parseNodeProfileMessage db m else .ok (c, [])
    .ok (c, calls ++ if c.listener then [.message m] else [])

/-- The callbacks of the local node: the node listener is the controller, which returns no error. -/
def env (e : Env) : Env where
  listener := true
  objListener := e.objListener
  reqHandler := e.reqHandler
  behave := fun n cs x => match x with
    | .message _ => ((e.behave n cs x).1, none)
    | _ => e.behave n cs x

/-- A message arrives at the controller: `localNode.ProtocolMessageReceived`
(local_node_message_handler.go:13-46), calling `controller.OnMessage` as node listener. The flag
`selfMsg` and the servers are those at that time. -/
def received (db : StdDB) (e : Env) (c : Ctrl) (m : Message) : Res (Ctrl × List CtrlCall × Outcome) := do
  let out ← c.node.received (env e) db m
  let (c, calls) ← if out.calls.contains (.message m) then c.onMessage db m else .ok (c, [])
  .ok ({ c with node := out.node }, calls, out)

/-- `controller.LookupNode` (controller.go:90-97). -/
def lookupNode (c : Ctrl) (addr : String) : Option RemoteNode :=
  c.found.find? (fun n => n.address == addr)

/-- `controller.Clear` (controller.go:146-149). -/
def clear (c : Ctrl) : Ctrl := { c with found := [] }

/-- `newSearchMessage` (message_func.go:11-25). -/
def searchMessage : Message :=
  (((Message.new.setESV ESV.readRequest).setSEOJ nodeProfileObjectCode).setDEOJ
    nodeProfileObjectCode).addProperty (some ⟨selfNodeInstanceListS, []⟩)

/-- `controller.SearchAllObjects` (controller.go:100-104, 107-109). -/
def searchAllObjects (c : Ctrl) : Ctrl × List Message × Option Err :=
  let (n, ms, e) := c.node.announceMessage (searchMessage.setESV ESV.readRequest)
  ({ c with node := n }, ms, e)

/-- `controller.SearchObjectWithESV` (controller.go:112-117); `SearchObject` (119-122) is the case
`ESV.readRequest`. -/
def searchObjectWithESV (c : Ctrl) (code : ObjectCode) (esv : ESV) : Ctrl × List Message × Option Err :=
  let (n, ms, e) := c.node.announceMessage ((searchMessage.setESV esv).setDEOJ code)
  ({ c with node := n }, ms, e)

end Ctrl

/-- What happens to a controller. -/
inductive CtrlOp where
  | received (e : Env) (m : Message)
  | start (res : Option (Bool × Addr)) (stays : Bool) (servers : List Addr)  -- Start
  | stop                                                                     -- Stop
  | clear                                                                    -- Clear
  | search                                                                   -- Search, SearchAllObjects
  | setListener (b : Bool)                                                   -- SetListener
  | configure (selfMsg autoPort : Bool)                                      -- SetConfig
  | node (op : NodeOp)                                                       -- on the embedded node

namespace CtrlOp

/-- The controller after an event and the calls of its listener; a message whose handling panics
would end the program (`Props.C47_no_panic` shows that there is none). -/
def run (db : StdDB) (c : Ctrl) : CtrlOp → Ctrl × List CtrlCall
  | received e m =>
    match c.received db e m with
    | .ok (c, calls, _) => (c, calls)
    | _ => (c, [])
  | start res stays servers =>
    ({ c.clear with node := (c.node.start res stays).1, servers := servers }, [])  -- controller.go:152-160
  | stop => ({ c with node := c.node.stop, servers := [] }, [])                    -- controller.go:163-168
  | clear => (c.clear, [])
  | search => (c.searchAllObjects.1, [])
  | setListener b => ({ c with listener := b }, [])                                -- controller.go:80-82
  | configure s a => ({ c with node := { c.node with selfMsg := s }, autoPort := a }, [])
  | node op => ({ c with node := (op.run db c.node).1 }, [])

/-- A history. -/
def runAll (db : StdDB) (c : Ctrl) : List CtrlOp → Ctrl × List CtrlCall
  | [] => (c, [])
  | op :: ops =>
    let (c, calls) := op.run db c
    let (c, calls') := runAll db c ops
    (c, calls ++ calls')

end CtrlOp
end Verif.Model

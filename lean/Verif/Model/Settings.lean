import Verif.Model.Config

/-!
# Model of configurations as shared objects (config.go, local_node.go, transport/message_manager.go, unicast_manager.go)

A node keeps a reference to the configuration it is given and copies a part of it into the configuration of its unicast
manager, which copies a part into each server when it is started. Every reader of a flag in the code reads one of the
three; the others are not modelled here. A program has the transport configuration of a configuration by
`TransportConfig` and can change it at any time.
-/

namespace Verif.Model

/-- `config` (config.go:31-34). -/
structure NodeConfig where
  transport : TransportConfig
  selfMsg : Bool
deriving DecidableEq, Repr

/-- `newDefaultConfig` (config.go:48-57) with `WithConfigTCPEnabled` (config.go:37-41) for each of the flags. -/
def NodeConfig.make (tcp : List Bool) : NodeConfig :=
  tcp.foldl (fun c b => { c with transport := { c.transport with unicast := c.transport.unicast.setTCPEnabled b } })
    ⟨.default, true⟩

/-- What a program sets in a configuration. -/
inductive ConfigChange where
  | tcp (b : Bool)           -- SetTCPEnabled (config.go:65-68, transport/unicast_config.go:40-42)
  | connection (d : Int)     -- SetConnectionTimeout
  | request (d : Int)        -- SetRequestTimeout
  | retries (n : GoUint)     -- SetBindRetryCount
  | wait (d : Int)           -- SetBindRetryWaitTime
  | auto (b : Bool)          -- SetAutoPortBindingEnabled (transport/extention_config.go:30-32)
  | self (b : Bool)          -- SetSelfMessageEnabled (config.go:71-74)
deriving DecidableEq, Repr

/-- The configuration changed. -/
def ConfigChange.run (c : NodeConfig) : ConfigChange → NodeConfig
  | tcp b => { c with transport := { c.transport with unicast := c.transport.unicast.setTCPEnabled b } }
  | connection d => { c with transport := { c.transport with unicast := c.transport.unicast.setConnectionTimeout d } }
  | request d => { c with transport := { c.transport with unicast := c.transport.unicast.setRequestTimeout d } }
  | retries n => { c with transport := { c.transport with unicast := c.transport.unicast.setBindRetryCount n } }
  | wait d => { c with transport := { c.transport with unicast := c.transport.unicast.setBindRetryWaitTime d } }
  | auto b => { c with transport := { c.transport with autoPortBindingEnabled := b } }
  | self b => { c with selfMsg := b }

/-- The configurations of a program and the place of each that a node uses: `configs` are all there are, `own` the one
the node refers to (`localNode.Config`, local_node.go:78), `manager` that of the unicast manager
(transport/unicast_manager.go:16) and `servers` that of the servers that are running (transport/unicast_server.go:16). -/
structure Settings where
  configs : List NodeConfig
  own : Nat
  manager : TransportConfig
  servers : Option UnicastConfig
deriving DecidableEq, Repr

/-- What a program does. -/
inductive SettingsOp where
  | make (tcp : List Bool)                  -- NewDefaultConfig
  | change (i : Nat) (c : ConfigChange)     -- a setter of configuration `i`
  | setConfig (i : Nat)                     -- SetConfig, WithLocalNodeConfig, WithControllerConfig
  | start                                   -- a successful Start
  | stop                                    -- Stop
deriving DecidableEq, Repr

namespace Settings

/-- `newLocalNode` (local_node.go:92-113): a default configuration of its own; the manager has another one
(transport/unicast_manager.go:24-32). -/
def new : Settings := ⟨[.make []], 0, .default, none⟩

/-- One call. -/
def step (s : Settings) : SettingsOp → Settings
  | .make tcp => { s with configs := s.configs ++ [.make tcp] }
  | .change i c =>
    match s.configs[i]? with
    | some x => { s with configs := s.configs.set i (c.run x) }
    | none => s
  | .setConfig i =>                         -- local_node.go:132-135
    match s.configs[i]? with
    | some x => { s with own := i, manager := s.manager.setConfig x.transport }
    | none => s
  | .start => { s with servers := some (UnicastConfig.default.setConfig s.manager.unicast) }  -- unicast_manager.go:51-52
  | .stop => { s with servers := none }

/-- A history. -/
def run (s : Settings) (ops : List SettingsOp) : Settings := ops.foldl step s

/-- The configuration the node shows: `TCPEnabled`, `RequestTimeout`, `SelfMessageEnabled` and `TransportConfig` of
the node (local_node.go:78) read it. -/
def shown (s : Settings) : NodeConfig := (s.configs[s.own]?).getD (.make [])

end Settings
end Verif.Model

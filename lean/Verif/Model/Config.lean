import Verif.Go

/-!
# Model of `transport/config.go`, `transport/unicast_config.go`, `transport/extention_config.go`
and of `SetConfig` of the message manager and the local node
-/

namespace Verif.Model

/-- `UnicastConfig` (transport/unicast_config.go:13-19). Durations are `int64` nanoseconds. -/
structure UnicastConfig where
  tcpEnabled : Bool
  connectionTimeout : Int
  requestTimeout : Int
  bindRetryCount : GoUint
  bindRetryWaitTime : Int
deriving DecidableEq, Repr

/-- `transport.Config` (transport/config.go:8-11) with `ExtensionConfig`
(transport/extention_config.go:12-14). -/
structure TransportConfig where
  unicast : UnicastConfig
  autoPortBindingEnabled : Bool
deriving DecidableEq, Repr

namespace UnicastConfig

/-- `NewDefaultUnicastConfig` (transport/unicast_config.go:22-31, transport/const.go:30-35). -/
def default : UnicastConfig := ⟨false, 5000000000, 5000000000, 5, 0⟩

/-- `UnicastConfig.SetConfig` (transport/unicast_config.go:34-37). -/
def setConfig (c new : UnicastConfig) : UnicastConfig :=
  { c with tcpEnabled := new.tcpEnabled, connectionTimeout := new.connectionTimeout }

/-- `SetTCPEnabled` (transport/unicast_config.go:40-42). -/
def setTCPEnabled (c : UnicastConfig) (b : Bool) : UnicastConfig := { c with tcpEnabled := b }

/-- `SetConnectionTimeout` (transport/unicast_config.go:50-52). -/
def setConnectionTimeout (c : UnicastConfig) (d : Int) : UnicastConfig := { c with connectionTimeout := d }

/-- `SetRequestTimeout` (transport/unicast_config.go:60-62). -/
def setRequestTimeout (c : UnicastConfig) (d : Int) : UnicastConfig := { c with requestTimeout := d }

/-- `SetBindRetryEnabled` (transport/unicast_config.go:70-76). -/
def setBindRetryEnabled (c : UnicastConfig) (b : Bool) : UnicastConfig :=
  if !b then { c with bindRetryCount := 0 } else { c with bindRetryCount := 5 }

/-- `BindRetryEnabled` (transport/unicast_config.go:79-81). -/
def bindRetryEnabled (c : UnicastConfig) : Bool := decide (c.bindRetryCount ≠ 0)

/-- `SetBindRetryCount` (transport/unicast_config.go:84-86). -/
def setBindRetryCount (c : UnicastConfig) (n : GoUint) : UnicastConfig := { c with bindRetryCount := n }

/-- `SetBindRetryWaitTime` (transport/unicast_config.go:94-96). -/
def setBindRetryWaitTime (c : UnicastConfig) (d : Int) : UnicastConfig := { c with bindRetryWaitTime := d }

/-- `UnicastConfig.Equals` (transport/unicast_config.go:104-106): `reflect.DeepEqual`. -/
def equals (a b : UnicastConfig) : Bool := decide (a = b)

end UnicastConfig

namespace TransportConfig

/-- `NewDefaultConfig` (transport/config.go:14-20). -/
def default : TransportConfig := ⟨.default, false⟩

/-- `Config.SetConfig` (transport/config.go:23-26, transport/extention_config.go:25-27). Also
`MessageManager.SetConfig` (transport/message_manager.go:54-56), where `c` is the configuration of
the unicast manager. -/
def setConfig (c new : TransportConfig) : TransportConfig :=
  ⟨c.unicast.setConfig new.unicast, new.autoPortBindingEnabled⟩

/-- `Config.Equals` (transport/config.go:29-37). -/
def equals (a b : TransportConfig) : Bool :=
  if !a.unicast.equals b.unicast then false
  else if !decide (a.autoPortBindingEnabled = b.autoPortBindingEnabled) then false
  else true

end TransportConfig
end Verif.Model

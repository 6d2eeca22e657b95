import Verif.Go

/-!
# Model of `transport/interface.go`

Names and addresses are lists of characters. What the system says about interfaces is a parameter:
it may answer differently at every call, so each call has a time.
-/

namespace Verif.Model

abbrev Str := List Char

/-- `net.Interface`, as far as it is used: name and flags. -/
structure NetIf where
  name : Str
  loopback : Bool
  up : Bool
  multicast : Bool
deriving DecidableEq, Repr

/-- A `*net.Interface`: the pointers a call of `GetAvailableInterfaces` returns are new ones
(transport/interface.go:154-155), named by the time of the call and the position. -/
structure IfPtr where
  time : Nat
  index : Nat
  nif : NetIf
deriving DecidableEq, Repr

/-- The answers of the system about interfaces: `net.Interfaces` and `Interface.Addrs` (printed),
`none` for an error, at the given time. -/
structure IfOs where
  interfaces : Nat → Option (List NetIf)
  addrs : Nat → NetIf → Option (List Str)

/-- `strings.Split(s, "/")`. -/
def splitSlash : Str → List Str
  | [] => [[]]
  | c :: cs =>
    if c = '/' then [] :: splitSlash cs
    else
      match splitSlash cs with
      | [] => [[c]]
      | x :: xs => (c :: x) :: xs

/-- `IsIPv6Address` (transport/interface.go:14-22). -/
def isIPv6Address (addr : Str) : Bool :=
  if addr.length = 0 then false
  else if addr.any (· = ':') then true
  else false

/-- `IsIPv4Address` (transport/interface.go:25-30). -/
def isIPv4Address (addr : Str) : Bool :=
  if addr.length = 0 then false else !isIPv6Address addr

/-- `IsLoopbackAddress` (transport/interface.go:51-57). -/
def isLoopbackAddress (addr : Str) : Bool :=
  [['1', '2', '7', '.', '0', '.', '0', '.', '1'], [':', ':', '1']].contains addr

/-- `IsCommunicableAddress` (transport/interface.go:60-68). -/
def isCommunicableAddress (addr : Str) : Bool :=
  if addr.length = 0 then false else if isLoopbackAddress addr then false else true

/-- `IsBridgeInterface` (transport/interface.go:71-81). -/
def isBridgeInterface (i : NetIf) : Bool :=
  [['v', 'i', 'r', 'b', 'r', '0']].any (fun p => p.isPrefixOf i.name)

/-- `IsVirtualInterface` (transport/interface.go:84-98). -/
def isVirtualInterface (i : NetIf) : Bool :=
  [['u', 't', 'u', 'n'], ['l', 'l', 'w'], ['a', 'w', 'd', 'l'], ['e', 'n', '6'],
    ['d', 'o', 'c', 'k', 'e', 'r', '0']].any (fun p => p.isPrefixOf i.name)

/-- `GetInterfaceAddresses` (transport/interface.go:101-122) on the answer of `Addrs`. -/
def getInterfaceAddresses (addrs : Option (List Str)) : Res (List Str) :=
  match addrs with
  | none => .err .other
  | some addrs =>
    let ipaddrs := addrs.foldl (fun acc addr =>
      match splitSlash addr with
      | s0 :: _ :: _ => if isIPv6Address s0 then acc else acc ++ [s0]
      | _ => acc) []
    if ipaddrs.length = 0 then .err .invalid else .ok ipaddrs

/-- The loop body of `GetAvailableInterfaces` (transport/interface.go:132-156): is the interface
used? `t` is the time of the call of `Addrs`. -/
def useInterface (os : IfOs) (t : Nat) (i : NetIf) : Bool :=
  if i.loopback then false
  else if !i.up then false
  else if !i.multicast then false
  else if isBridgeInterface i then false
  else if isVirtualInterface i then false
  else
    match getInterfaceAddresses (os.addrs t i) with
    | .ok _ => true
    | _ => false

/-- The loop of `GetAvailableInterfaces`: `t` is the time, `t0` the time of the call and `n` the
position. -/
def availableFrom (os : IfOs) (t0 : Nat) : Nat → Nat → List NetIf → List IfPtr
  | _, _, [] => []
  | t, n, i :: is =>
    if useInterface os t i then ⟨t0, n, i⟩ :: availableFrom os t0 (t + 1) (n + 1) is
    else availableFrom os t0 (t + 1) (n + 1) is

/-- `GetAvailableInterfaces` (transport/interface.go:125-163) called at time `t`. -/
def getAvailableInterfaces (os : IfOs) (t : Nat) : Res (List IfPtr) :=
  match os.interfaces t with
  | none => .err .other
  | some localIfs =>
    let useIfs := availableFrom os t (t + 1) 0 localIfs
    if useIfs.length = 0 then .err .invalid else .ok useIfs

/-- `GetAvailableAddresses` (transport/interface.go:166-180); the second call of `Addrs` for the
interface at position `n` of the result happens at time `t + n`. -/
def availableAddressesFrom (os : IfOs) : Nat → List IfPtr → List Str
  | _, [] => []
  | t, i :: is =>
    match getInterfaceAddresses (os.addrs t i.nif) with
    | .ok a => a ++ availableAddressesFrom os (t + 1) is
    | _ => availableAddressesFrom os (t + 1) is

end Verif.Model

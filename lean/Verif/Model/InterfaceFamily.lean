import Verif.Model.Interface

/-!
# Model of the tests for the family of an interface (`net/echonet/transport/interface.go`)
-/

namespace Verif.Model

/-- `IsIPv6Interface` (transport/interface.go:33-39) on the answer of `Addrs`. -/
def isIPv6Interface (addrs : Option (List Str)) : Bool :=
  match getInterfaceAddresses addrs with
  | .ok as => as.any isIPv6Address
  | _ => false

/-- `IsIPv4Interface` (transport/interface.go:42-48) on the answer of `Addrs`. -/
def isIPv4Interface (addrs : Option (List Str)) : Bool :=
  match getInterfaceAddresses addrs with
  | .ok as => as.any isIPv4Address
  | _ => false

end Verif.Model

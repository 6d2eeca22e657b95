import Verif.Model.NodeEnds

/-! # Model of `Addresses` (`net/echonet/transport/message_manager.go`, `controller.go`) -/

namespace Verif.Model.Transport

/-- `MessageManager.Addresses` (transport/message_manager.go:41-51), which `Controller.Addresses` (controller.go:31)
is. `Socket.Address` (transport/socket.go:69-74) fails only if the port of the bound status is 0. For a multicast
server it is set to 3610 when it is bound (transport/multicast_socket.go:48) and never changed after that. -/
def addresses (s : Transport) : List Str := s.mservers.map (·.addr)

end Verif.Model.Transport

import Verif.Model.Receive

/-!
# Model of the size of the read buffer (`net/echonet/transport/udp_socket.go`)
-/

namespace Verif.Model

/-- `UDPSocket.SetReadBufferSize` (transport/udp_socket.go:39-42): `make` of a negative size panics. The size is kept
in a field of its own there, which always is the length of the buffer. -/
def UdpSocket.setReadBufferSize (s : UdpSocket) (n : Int) : Res UdpSocket :=
  if n < 0 then .panic else .ok ⟨s.conn, List.replicate n.toNat 0, s.ifc⟩

/-- `UDPSocket.ReadBufferSize` (transport/udp_socket.go:45-47). -/
def UdpSocket.readBufferSize (s : UdpSocket) : Int := s.readBuffer.length

/-- Any number of calls of `ReadMessage` (transport/udp_socket.go:127-149). -/
def UdpSocket.readMany (s : UdpSocket) (evs : List RecvEvent) : UdpSocket :=
  evs.foldl (fun s ev => (s.readMessage ev).1) s

end Verif.Model

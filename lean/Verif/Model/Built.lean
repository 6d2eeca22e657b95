import Verif.Model.Reader

/-!
# Messages obtainable through the API

`Built m`: `m` is the result of some finite history of calls of the exported
functions and methods of `protocol.Message` (protocol/message.go) and assignments of
its exported fields `EHD1Echonet`, `EHD2Format1`, `From`, `Interface`.
-/

namespace Verif.Model

inductive Built : Message → Prop
  | new : Built Message.new
  | decoded {d : Bytes} {m : Message} : Message.newWithBytes d = .ok m → Built m
  | read {σ : Type} {r : Reader σ} {s s' : σ} {m : Message} :
      Message.newWithReader r s = .ok (s', m) → Built m
  | copied {m c : Message} : Built m → Message.newWithMessage m = .ok c → Built c
  | response {m : Message} : Built m → Built m.newResponse
  | impossible {m r : Message} : Built m → m.newImpossible = .ok r → Built r
  | setEHD {m : Message} (b1 b2 : Byte) : Built m → Built { m with ehd1 := b1, ehd2 := b2 }
  | setFrom {m : Message} (a : Addr) : Built m → Built { m with src := a }
  | setPacketType {m : Message} (t : Nat) : Built m → Built { m with pktType := t }
  | setInterface {m : Message} (i : Option String) : Built m → Built { m with ifc := i }
  | setTID {m : Message} (v : GoUint) : Built m → Built (m.setTID v)
  | setSEOJ {m : Message} (c : ObjectCode) : Built m → Built (m.setSEOJ c)
  | setDEOJ {m : Message} (c : ObjectCode) : Built m → Built (m.setDEOJ c)
  | setESV {m : Message} (e : ESV) : Built m → Built (m.setESV e)
  | setOPC {m : Message} (n : Int) : Built m → Built (m.setOPC n)
  | addProperty {m : Message} (p : Option PProp) : Built m → Built (m.addProperty p)

end Verif.Model

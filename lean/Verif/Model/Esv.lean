import Verif.Go

/-! # Model of `net/echonet/protocol/esv.go` -/

namespace Verif.Model

/-- `type ESV byte` (protocol/esv.go:13). -/
abbrev ESV := Byte

namespace ESV

/-- protocol/esv.go:16 -/ def writeRequest : ESV := 0x60
/-- protocol/esv.go:17 -/ def writeRequestResponseRequired : ESV := 0x61
/-- protocol/esv.go:18 -/ def readRequest : ESV := 0x62
/-- protocol/esv.go:19 -/ def notificationRequest : ESV := 0x63
/-- protocol/esv.go:20 -/ def writeReadRequest : ESV := 0x6E
/-- protocol/esv.go:21 -/ def writeResponse : ESV := 0x71
/-- protocol/esv.go:22 -/ def readResponse : ESV := 0x72
/-- protocol/esv.go:23 -/ def notification : ESV := 0x73
/-- protocol/esv.go:24 -/ def notificationResponseRequired : ESV := 0x74
/-- protocol/esv.go:25 -/ def notificationResponse : ESV := 0x7A
/-- protocol/esv.go:26 -/ def writeReadResponse : ESV := 0x7E
/-- protocol/esv.go:27 -/ def writeRequestError : ESV := 0x50
/-- protocol/esv.go:28 -/ def writeRequestResponseRequiredError : ESV := 0x51
/-- protocol/esv.go:29 -/ def readRequestError : ESV := 0x52
/-- protocol/esv.go:30 -/ def notificationRequestError : ESV := 0x53
/-- protocol/esv.go:31 -/ def writeReadRequestError : ESV := 0x5E

/-- `ESV.IsValid` (protocol/esv.go:35-56). -/
def isValid (e : ESV) : Bool :=
  [writeRequest, writeRequestResponseRequired, readRequest, notificationRequest,
   writeReadRequest, writeResponse, readResponse, notification, notificationResponseRequired,
   notificationResponse, writeReadResponse, writeRequestError,
   writeRequestResponseRequiredError, readRequestError, notificationRequestError,
   writeReadRequestError].contains e

/-- `ESV.IsWriteRequest` (protocol/esv.go:59-69). -/
def isWriteRequest (e : ESV) : Bool :=
  if e = writeRequest then true
  else if e = writeRequestResponseRequired then true
  else if e = writeReadRequest then true
  else false

/-- `ESV.IsReadRequest` (protocol/esv.go:72-80). -/
def isReadRequest (e : ESV) : Bool :=
  if e = readRequest then true
  else if e = writeReadRequest then true
  else false

/-- `ESV.IsNotificationRequest` (protocol/esv.go:83-89). -/
def isNotificationRequest (e : ESV) : Bool :=
  if e = notificationRequest then true else false

/-- `ESV.IsWriteResponse` (protocol/esv.go:92-100). -/
def isWriteResponse (e : ESV) : Bool :=
  if e = writeResponse then true
  else if e = writeReadResponse then true
  else false

/-- `ESV.IsReadResponse` (protocol/esv.go:103-111). -/
def isReadResponse (e : ESV) : Bool :=
  if e = readResponse then true
  else if e = writeReadResponse then true
  else false

/-- `ESV.IsNotification` (protocol/esv.go:114-122). -/
def isNotification (e : ESV) : Bool :=
  if e = notification then true
  else if e = notificationResponseRequired then true
  else false

/-- `ESV.IsNotificationResponse` (protocol/esv.go:125-131). -/
def isNotificationResponse (e : ESV) : Bool :=
  if e = notificationResponse then true else false

/-- `ESV.IsResponseRequired` (protocol/esv.go:134-148). -/
def isResponseRequired (e : ESV) : Bool :=
  if e = readRequest then true
  else if e = notificationRequest then true
  else if e = writeReadRequest then true
  else if e = writeRequestResponseRequired then true
  else if e = notificationResponseRequired then true
  else false

end ESV
end Verif.Model

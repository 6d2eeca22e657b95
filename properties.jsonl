{"id": "C01", "title": "Integer codec round trip", "statement": "Writing an unsigned integer v into a buffer of n bytes with encoding.IntegerToByte and reading it back with encoding.ByteToInteger gives v mod 256^n (v itself whenever it fits); reading any buffer that fits the uint and writing it back into a buffer of the same length gives the same bytes; the first byte is the most significant.", "quantifier": "every uint value, every buffer length and content, every uint width that is a multiple of 8 bits", "why_tests_cant": "the tests try a handful of values and sizes 1..4; value and length are unbounded", "anchors": ["net/echonet/encoding/binary.go:IntegerToByte", "net/echonet/encoding/binary.go:ByteToInteger"]}
{"id": "C02", "title": "Message encode/decode round trip", "statement": "Encoding a message with Bytes() and decoding the result with NewMessageWithBytes succeeds and gives back the same headers, TID, SEOJ, DEOJ, ESV, OPC and the same properties with the same data in the same order, for every message with the ECHONET Lite format-1 header, at most 255 properties, none nil, and at most 255 data bytes per property.", "quantifier": "every message obtainable by any sequence of message API calls within the stated limits", "why_tests_cant": "the space of property counts, data lengths and contents is unbounded for testing; tests check three literals", "anchors": ["net/echonet/protocol/message.go:Bytes", "net/echonet/protocol/message.go:NewMessageWithBytes", "net/echonet/protocol/message_parser.go:ParseBytes"]}
{"id": "C03", "title": "Encoded layout is the ECHONET Lite frame", "statement": "Bytes() never panics and yields exactly EHD1, EHD2, TID (2 bytes big endian), SEOJ (3), DEOJ (3), ESV, OPC, then for each of the first OPC properties EPC, PDC, EDT, where PDC is the data length modulo 256; its length is Size().", "quantifier": "every message obtainable by any sequence of message API calls, including more than 255 properties and data longer than 255 bytes", "why_tests_cant": "a layout bug at one offset may show only for particular combinations of property counts and lengths", "anchors": ["net/echonet/protocol/message.go:Bytes", "net/echonet/protocol/message.go:Size"]}
{"id": "C04", "title": "Decoding arbitrary bytes is total and rejects exactly bad headers", "statement": "NewMessageWithBytes never panics; it returns an error exactly when the input is shorter than 12 bytes, or its first two bytes are not 0x10 0x81.", "quantifier": "every byte sequence of every length", "why_tests_cant": "datagrams come from the network; no finite set of inputs shows the absence of an index panic", "anchors": ["net/echonet/protocol/message.go:NewMessageWithBytes", "net/echonet/protocol/message_parser.go:ParseBytes", "net/echonet/protocol/message_parser.go:parseFormat1PropertyBytes"]}
{"id": "C05", "title": "Decode then encode reproduces the frame", "statement": "For a complete frame followed by arbitrary trailing bytes, decoding and re-encoding gives exactly the frame without the trailing bytes; for any accepted input, decoding the re-encoded bytes gives the same message again.", "quantifier": "every complete frame and every trailing byte sequence; every accepted input", "why_tests_cant": "depends on the whole input, of unbounded content", "anchors": ["net/echonet/protocol/message_parser.go:ParseBytes", "net/echonet/protocol/message.go:Bytes"]}
{"id": "C06", "title": "Truncated frames are rejected", "statement": "NewMessageWithBytes returns an error when the input ends before the OPC properties announced by its header are complete.", "quantifier": "every frame and every strict prefix of it", "why_tests_cant": "the cut point and the data after which the parser re-synchronises are arbitrary", "anchors": ["net/echonet/protocol/message_parser.go:parseFormat1PropertyBytes"]}
{"id": "C07", "title": "Decoded messages are bounded by and drawn from the input", "statement": "A decoded message has OPC equal to the OPC byte of the input and exactly that many non-nil properties; every property has at most 255 data bytes; every non-empty property data is a contiguous part of the input preceded by its length byte and its code.", "quantifier": "every accepted input", "why_tests_cant": "an over-read or fabricated data needs an adversarial length byte; the input is unbounded", "anchors": ["net/echonet/protocol/message_parser.go:parseFormat1PropertyBytes", "net/echonet/protocol/message.go:SetOPC"]}
{"id": "C08", "title": "Stream decoding agrees with the bytes delivered", "statement": "If NewMessageWithReader succeeds then the bytes it consumed from the reader, in order, are exactly the encoding of the message returned, and decoding them with NewMessageWithBytes gives the same message; it never panics.", "quantifier": "every io.Reader honouring the Read contract, with every choice of short reads, errors and contents", "why_tests_cant": "readers choose how many bytes to hand over on each call; schedules are unbounded", "anchors": ["net/echonet/protocol/message_parser_reader.go:ParseReader", "net/echonet/protocol/message_parser_reader.go:parseFormat1PropertyReader"]}
{"id": "C09", "title": "Stream decoding does not depend on segmentation", "statement": "When a connection delivers the bytes of a complete message, NewMessageWithReader returns this message however the bytes are split into segments.", "quantifier": "every message and every partition of its encoding into non-empty segments", "why_tests_cant": "TCP segmentation is chosen by the network", "anchors": ["net/echonet/protocol/message_parser_reader.go:ParseReader", "net/echonet/transport/tcp_socket.go:ReadMessage"]}
{"id": "C10", "title": "Transaction identifiers are stored and read back", "statement": "After SetTID(v), TID() is v for v up to 65535, is v mod 65535 for larger v, and TID() never exceeds 65535; no other part of the message changes.", "quantifier": "every uint value and every message", "why_tests_cant": "tests check a few values; the fold above the maximum is only visible at the boundary", "anchors": ["net/echonet/protocol/message.go:SetTID", "net/echonet/protocol/message.go:TID"]}
{"id": "C11", "title": "OPC counts the properties", "statement": "After any sequence of message API calls (SetOPC, AddProperty, SetTID, SetSEOJ, SetDEOJ, SetESV, decode), OPC() is the number of properties held modulo 256, Property(n) for n >= 0 is nil exactly outside the held range or where a nil was added (a negative n panics), and the fixed fields keep their sizes.", "quantifier": "every finite history of API calls", "why_tests_cant": "histories are unbounded; the counter wraps only after 256 additions", "anchors": ["net/echonet/protocol/message.go:SetOPC", "net/echonet/protocol/message.go:AddProperty", "net/echonet/protocol/message.go:Property"]}
{"id": "C12", "title": "Message equality and copies", "statement": "Equals holds exactly between messages with the same encoding, is reflexive, symmetric and transitive; NewMessageWithMessage of a message with standard header and sizes within one byte succeeds, is Equal to the original and keeps its source address, packet type and interface.", "quantifier": "every pair and triple of messages", "why_tests_cant": "relational claim over unbounded messages", "anchors": ["net/echonet/protocol/message.go:Equals", "net/echonet/protocol/message.go:NewMessageWithMessage"]}
{"id": "C13", "title": "Object codes survive the message header and object code codecs", "statement": "SetSEOJ/SEOJ and SetDEOJ/DEOJ and Object.SetCode/Code return the value set modulo 2^24; the two headers do not interfere; SetCodes and the setters of single code bytes of an object set exactly the bytes given, at most three, and no other call changes its code; NewObjectCodeFromBytes accepts exactly 3 bytes and inverts ObjectCode.Bytes for 24-bit codes.", "quantifier": "every object code and every message and object", "why_tests_cant": "2^24 codes times arbitrary previous states", "anchors": ["net/echonet/protocol/message.go:SetSEOJ", "net/echonet/protocol/message.go:SetDEOJ", "net/echonet/protocol/object.go:NewObjectCodeFromBytes", "net/echonet/object.go:SetCode"]}
{"id": "C14", "title": "Service code classification", "statement": "The ESV predicates partition service codes as ECHONET Lite tables 3-9 to 3-11 say: IsValidESV exactly the 16 listed codes; each write/read/notification request and response predicate exactly its own codes; a response is required for SetC, Get, INF_REQ, SetGet and INFC only; error responses are never requests.", "quantifier": "all 256 ESV byte values", "why_tests_cant": "tests check the valid codes only, never the rejection of the other 240", "anchors": ["net/echonet/protocol/esv.go"]}
{"id": "C15", "title": "Normal responses mirror their request", "statement": "The response built for a request keeps the TID, swaps source and destination objects, carries the response ESV paired with the request ESV (0 if the ESV is not a response-requiring request), and starts with no properties.", "quantifier": "every request message", "why_tests_cant": "must hold for every TID, object pair and ESV", "anchors": ["net/echonet/protocol/message.go:NewResponseMessageWithMessage"]}
{"id": "C16", "title": "Error responses echo the request", "statement": "The error (impossible) response built for a request keeps the TID, swaps the objects, has the error ESV paired with the request ESV, and lists the same number of properties with the same property codes as the request.", "quantifier": "every request message", "why_tests_cant": "must hold for every property list; tests never look at the property list of an error response", "anchors": ["net/echonet/protocol/message.go:NewImpossibleMessageWithMessage"]}
{"id": "C17", "title": "Stored data does not alias caller buffers", "statement": "After SetData(buf) (or decoding a message from buf), later changes to buf never change the property's data; data handed to one property never changes through another property; a message received over UDP is not altered when the receive buffer is reused for later datagrams.", "quantifier": "every interleaving of property writes and buffer mutations, every heap layout", "why_tests_cant": "aliasing shows up only for particular interleavings of later writes", "anchors": ["net/echonet/property.go:SetData", "net/echonet/protocol/property.go:SetData", "net/echonet/protocol/message_parser.go:parseFormat1PropertyBytes", "net/echonet/transport/udp_socket.go:ReadMessage"]}
{"id": "C18", "title": "Integer property values round trip", "statement": "After Property.SetInteger(v, n), AsInteger returns v mod 256^n for n >= 1 and ErrNoData for n = 0, Data has exactly n bytes, big endian.", "quantifier": "every value, every size", "why_tests_cant": "value and size unbounded", "anchors": ["net/echonet/property.go:SetInteger", "net/echonet/property.go:AsInteger"]}
{"id": "C19", "title": "Typed property reads fail exactly on size mismatch", "statement": "AsByte succeeds exactly for one byte of data, AsInteger and AsString exactly for non-empty data, otherwise they return an error and no value; they never panic.", "quantifier": "every property content", "why_tests_cant": "all lengths", "anchors": ["net/echonet/property.go:AsByte", "net/echonet/property.go:AsInteger", "net/echonet/property.go:AsString", "net/echonet/protocol/property.go:AsByte"]}
{"id": "C20", "title": "Service availability follows the attributes", "statement": "IsAvailableService(esv) is true exactly when the property's attributes allow the service: writable for 0x60/0x61, readable for 0x62, announceable for 0x63/0x74, both readable and writable for 0x6E, and false for any other code.", "quantifier": "all ESV values and all attribute combinations", "why_tests_cant": "tests check selected pairs", "anchors": ["net/echonet/property.go:IsAvailableService"]}
{"id": "C21", "title": "Property map description round trip up to 15 properties", "statement": "A property map property describing at most 15 property codes decodes with PropertyMapData to the same codes in the same order.", "quantifier": "every list of at most 15 codes", "why_tests_cant": "256^15 lists", "anchors": ["net/echonet/super_object.go:setPropertyMapProperty", "net/echonet/property.go:PropertyMapData"]}
{"id": "C22", "title": "Property map description round trip above 15 properties", "statement": "A property map property describing 16 or more property codes (each 0x80..0xFF, no duplicates) decodes with PropertyMapData to the same set of codes, and its 17 bytes are the ECHONET Lite bitmap.", "quantifier": "every set of 16 to 128 property codes", "why_tests_cant": "2^128 sets; a lost bit shows only for particular codes", "anchors": ["net/echonet/super_object.go:setPropertyMapProperty", "net/echonet/property.go:PropertyMapData", "net/echonet/property_func.go:propertyMapFormat2ByteToCodes"]}
{"id": "C23", "title": "Property maps stay current", "statement": "After any sequence of AddProperty, SetCode and SetCodes on a device, profile or super object itself (for calls on the object a handler gets see C150) that has the map properties, properties 0x9F, 0x9E, 0x9D hold the encodings of exactly the readable, writable and announceable property codes the object has at that time.", "quantifier": "every history of property additions and class changes", "why_tests_cant": "histories are unbounded and replace properties (including the map properties themselves)", "anchors": ["net/echonet/super_object.go:updatePropertyMap", "net/echonet/super_object.go:AddProperty"]}
{"id": "C24", "title": "Objects hold properties as a map", "statement": "LookupProperty(c) returns the property last added with code c, unaffected by additions and writes of other codes; SetPropertyData changes exactly the data of that code or fails with ErrNotFound when it is absent; PropertyCount is the number of distinct codes; Properties() lists each property once in increasing code order whatever the map iteration order.", "quantifier": "every history of additions and writes, every map iteration order", "why_tests_cant": "Go map order is random and histories unbounded", "anchors": ["net/echonet/property_map.go"]}
{"id": "C25", "title": "Devices are built from the standard database", "statement": "NewDeviceWithCode(c) succeeds exactly when the class of c is in the standard database; the device then has code c mod 2^24 and exactly the properties of the super class and of its class, with the attributes of the class taking precedence, and empty data except the three property maps.", "quantifier": "every object code", "why_tests_cant": "2^24 codes, 57 classes, nearly 1000 property definitions", "anchors": ["net/echonet/device.go:NewDeviceWithCode", "net/echonet/super_object.go:SetCode", "net/echonet/database_mra_objects.go"]}
{"id": "C26", "title": "Standard database lookup is by class", "statement": "The database finds an object description for a code exactly when its class is registered, and the instance code never matters; every registered class is found with its own name and properties; every registered property has a code of 0x80 or more.", "quantifier": "every object code; all registered classes", "why_tests_cant": "2^24 codes", "anchors": ["net/echonet/database.go:LookupObject", "net/echonet/database_mra_objects.go:initObjects"]}
{"id": "C27", "title": "Device status accessors", "statement": "On an object having the property: SetOperatingStatus, SetManufacturerCode, SetFaultStatus and SetInstallationLocation are read back by their getters; each changes only its own property; every getter reports an error when the property is absent or empty.", "quantifier": "every device state and value", "why_tests_cant": "all previous states", "anchors": ["net/echonet/super_object.go:SetOperatingStatus", "net/echonet/super_object.go:SetManufacturerCode", "net/echonet/device.go:SetFaultStatus", "net/echonet/device.go:SetInstallationLocation"]}
{"id": "C28", "title": "Standard version is read back", "statement": "After SetStandardVersion(v) on a device having property 0x82, StandardVersion() returns v.", "quantifier": "every version byte and device state", "why_tests_cant": "all device states", "anchors": ["net/echonet/device.go:SetStandardVersion", "net/echonet/device.go:StandardVersion"]}
{"id": "C29", "title": "Transaction identifier sequence", "statement": "Successive transaction identifiers issued by a node stay within 0..65535, advance by one modulo 65536, and any 65536 consecutive ones are pairwise distinct.", "quantifier": "every starting point and every number of calls", "why_tests_cant": "the wrap is 65536 calls away", "anchors": ["net/echonet/local_node.go:NextTID"]}
{"id": "C30", "title": "Node profile describes the node", "statement": "After any sequence of AddDevice, AddProfile, SetManufacturerCode and property writes to other codes on a local node, the node profile's instance count (0xD3), class count (0xD4), instance list notification and S (0xD5, 0xD6) and class list (0xD7) describe exactly the devices and distinct classes of the node (the count bytes saturating at 255).", "quantifier": "every history of node operations", "why_tests_cant": "histories unbounded; saturation is beyond 255 devices", "anchors": ["net/echonet/local_node.go:AddDevice", "net/echonet/local_node.go:updateNodeProfile", "net/echonet/node_profile.go:SetInstanceList", "net/echonet/node_profile.go:SetClassList"]}
{"id": "C31", "title": "Manufacturer code is uniform across the node", "statement": "After any sequence of AddDevice, AddProfile and SetManufacturerCode, every device and profile added that has property 0x8A reports the manufacturer code of the node.", "quantifier": "every history", "why_tests_cant": "histories unbounded", "anchors": ["net/echonet/local_node.go:SetManufacturerCode", "net/echonet/local_node.go:AddDevice", "net/echonet/local_node.go:AddProfile"]}
{"id": "C32", "title": "A request is accepted exactly when it is well addressed and permitted", "statement": "A node rejects a received message exactly when the destination object does not exist, or the ESV is not a defined one, or it is a read/write request with a property that the object lacks, or that does not permit the service, or whose data size differs from the current size in a write.", "quantifier": "every node state and every message", "why_tests_cant": "product of states, property lists and ESVs", "anchors": ["net/echonet/local_node_message_handler.go:validateReceivedMessage"]}
{"id": "C33", "title": "Rejected requests reach no handler and change nothing", "statement": "When a received message is rejected, no message listener, object listener or property request handler runs, the node state is unchanged, and the reply is the error response for that request.", "quantifier": "every node state, every message, every set of handlers", "why_tests_cant": "handlers are arbitrary user code", "anchors": ["net/echonet/local_node_message_handler.go:ProtocolMessageReceived"]}
{"id": "C34", "title": "Accepted requests reach the handlers exactly once, in order", "statement": "For an accepted message the node listener is called once, and then, if it is addressed to an object with handlers, object listener and request handler are called once for each property in message order, with the ESV and the data received.", "quantifier": "every node state, message and handlers", "why_tests_cant": "every property list length", "anchors": ["net/echonet/local_node_message_handler.go:executeMessageListeners", "net/echonet/object.go:notifyPropertyRequest"]}
{"id": "C35", "title": "Responses report the values after the handlers ran", "statement": "For an accepted message whose ESV requires a response, if no listener reports an error the reply keeps the TID, swaps the objects, carries the paired response ESV and holds, in request order, each requested property the object has, with its data after all handlers ran.", "quantifier": "every node state, message and handlers", "why_tests_cant": "every handler effect", "anchors": ["net/echonet/local_node_message_handler.go:createResponseMessageForRequestMessage", "net/echonet/local_node_message_handler.go:ProtocolMessageReceived"]}
{"id": "C36", "title": "No reply when a listener refuses or none is due", "statement": "For an accepted message there is no reply if any listener or handler reports an error, and none if the ESV requires no response (SetI, notifications, responses, error responses).", "quantifier": "every node state, message and handlers", "why_tests_cant": "every handler result sequence", "anchors": ["net/echonet/local_node_message_handler.go:ProtocolMessageReceived"]}
{"id": "C37", "title": "A listener error suppresses the response whichever property it concerns", "statement": "If a property request handler returns an error for any of the properties of a request, no response is sent.", "quantifier": "every request with several properties and every handler", "why_tests_cant": "needs multi-property requests with a failing non-last property", "anchors": ["net/echonet/local_node_message_handler.go:executeMessageListeners"]}
{"id": "C38", "title": "Nodes never answer messages that are not requests", "statement": "A node sends no reply to a message whose ESV is not a request, so that an exchange between two nodes ends.", "quantifier": "every message and every pair of nodes", "why_tests_cant": "an endless exchange is not observable by a finite test", "anchors": ["net/echonet/local_node_message_handler.go:ProtocolMessageReceived", "net/echonet/protocol/message.go:NewImpossibleMessageWithMessage"]}
{"id": "C39", "title": "The library itself never changes property values on reception", "statement": "Receiving any message changes device and profile properties only through the user's listeners and handlers; without them the node state is unchanged, in particular by write requests.", "quantifier": "every message and node state", "why_tests_cant": "every message", "anchors": ["net/echonet/local_node_message_handler.go"]}
{"id": "C40", "title": "A read returns the value last set", "statement": "After any history of property writes on a node's objects, a Get request from a peer for a readable property is answered with the bytes last written to this property of this object.", "quantifier": "every history of writes and received messages", "why_tests_cant": "histories unbounded", "anchors": ["net/echonet/property.go:SetData", "net/echonet/local_node_message_handler.go:createResponseMessageForRequestMessage"]}
{"id": "C41", "title": "Announceable changes are multicast exactly once", "statement": "Setting a property's data on an object of a running local node multicasts exactly one INF message with that object as source, the node profile as destination, a fresh TID and the new data if the property is announceable, and nothing otherwise; a stopped node multicasts nothing. Announce of a property multicasts it once, announceable or not.", "quantifier": "every history of writes on a node", "why_tests_cant": "histories unbounded", "anchors": ["net/echonet/property.go:SetData", "net/echonet/property.go:Announce", "net/echonet/local_node_msssage.go:AnnounceProperty", "net/echonet/local_node_msssage.go:AnnounceMessage"]}
{"id": "C42", "title": "Own messages are ignored when self messages are disabled", "statement": "With self messages disabled, a message whose source address and port are the node's own has no effect: no reply, no handler call, no state change, and no pending request is completed by it.", "quantifier": "every node state and message", "why_tests_cant": "every message", "anchors": ["net/echonet/local_node_message_handler.go:ProtocolMessageReceived"]}
{"id": "C43", "title": "The node listener sees every message for the node", "statement": "As documented, the listener set with LocalNode.SetListener gets all messages for the node, including invalid ones, while object listeners get only valid messages.", "quantifier": "every received message", "why_tests_cant": "every message", "anchors": ["net/echonet/local_node_message_handler.go:executeMessageListeners", "doc/device_inside.md"]}
{"id": "C44", "title": "Discovered nodes are unique", "statement": "After any sequence of received messages, Nodes() of a controller never holds two nodes with the same address and port.", "quantifier": "every sequential history of received messages", "why_tests_cant": "histories unbounded", "anchors": ["net/echonet/controller_message_listener.go:addNode", "net/echonet/node.go:nodeEquals"]}
{"id": "C45", "title": "Discovered nodes are unique under concurrent reception", "statement": "Nodes() never holds two nodes with the same address and port when messages are handled concurrently, as the transport does.", "quantifier": "every interleaving of message handlers", "why_tests_cant": "race window of a few instructions", "anchors": ["net/echonet/controller_message_listener.go:addNode", "net/echonet/transport/unicast_server.go:handleUnicastUDPRequestMessage"]}
{"id": "C46", "title": "The controller listener is told of each node once", "statement": "Between two starts, ControllerNewNodeFound is called exactly once for each node in Nodes(), in the order of discovery, and ControllerMessageReceived once for every message that the local node accepts and does not ignore as its own, after the report of a node it makes known.", "quantifier": "every history of received messages", "why_tests_cant": "histories unbounded", "anchors": ["net/echonet/controller_message_listener.go:OnMessage", "net/echonet/controller_message_listener.go:addNode"]}
{"id": "C47", "title": "Instance lists are decoded completely or refused", "statement": "An instance list message yields a node with exactly the listed device objects in order, the sender's address and the required port, or is refused: when it has no properties, the first property is not 0xD5/0xD6, its data is shorter than the count requires, or it lists a class unknown to the database. It never panics.", "quantifier": "every message and configuration", "why_tests_cant": "count byte and data length are chosen by the sender", "anchors": ["net/echonet/remote_node.go:newRemoteNodeWithInstanceListMessage", "net/echonet/remote_node.go:newRemoteNodeWithInstanceListMessageAndConfig"]}
{"id": "C48", "title": "Discovery finds exactly the devices of a node", "statement": "When a controller receives the instance list announced by a node whose device classes are in the database, it lists this node with exactly its device object codes.", "quantifier": "every list of device codes", "why_tests_cant": "the limits (84 devices in one property, 255 in the count) are far beyond the tests", "anchors": ["net/echonet/node_profile.go:SetInstanceList", "net/echonet/local_node_msssage.go:Announce", "net/echonet/protocol/message.go:Bytes", "net/echonet/remote_node.go:newRemoteNodeWithInstanceListMessage"]}
{"id": "C49", "title": "Known nodes are refreshed", "statement": "When a node announces a new instance list, Nodes() of the controller shows the new device list for this node.", "quantifier": "every pair of announcements", "why_tests_cant": "needs a second differing announcement", "anchors": ["net/echonet/controller_message_listener.go:addNode"]}
{"id": "C50", "title": "Responses are matched to requests", "statement": "A message returned without error by PostMessage has the transaction identifier of the request just sent, and is not the request itself.", "quantifier": "every interleaving of the poster with receive handlers, and every arriving message", "why_tests_cant": "needs a message arriving between registering the request and sending it", "anchors": ["net/echonet/local_node_msssage.go:PostMessage", "net/echonet/local_node_msssage.go:isResponseMessage"]}
{"id": "C51", "title": "Responses come from the node asked", "statement": "A message returned without error by PostMessage comes from the destination node of the request and is a response.", "quantifier": "every arriving message", "why_tests_cant": "needs an adversarial or coincidental third node", "anchors": ["net/echonet/local_node_msssage.go:isResponseMessage"]}
{"id": "C52", "title": "Posting never crashes the process", "statement": "No interleaving of posting, timeouts and arriving messages makes the node panic.", "quantifier": "every interleaving, every number of duplicate responses", "why_tests_cant": "race window between a duplicate response and the end of the post", "anchors": ["net/echonet/local_node_msssage.go:setResponseMessage", "net/echonet/local_node_msssage.go:closeResponseChannel", "net/echonet/local_node_msssage.go:PostMessage"]}
{"id": "C53", "title": "At most one UDP post is pending", "statement": "At most one post over UDP is between taking the lock and releasing it; a post that ended (with response, error or timeout) leaves no pending request and releases the lock.", "quantifier": "every interleaving of any number of posters and receivers", "why_tests_cant": "schedules unbounded", "anchors": ["net/echonet/local_node_msssage.go:PostMessage"]}
{"id": "C54", "title": "Context cancellation ends a post", "statement": "PostMessage returns without waiting for the request timeout once its context is done.", "quantifier": "every schedule", "why_tests_cant": "timing dependent", "anchors": ["net/echonet/local_node_msssage.go:PostMessage"]}
{"id": "C55", "title": "Concurrent senders use distinct transaction identifiers", "statement": "Two messages sent concurrently by a node (announcements, sends, posts) carry different transaction identifiers.", "quantifier": "every interleaving of two senders", "why_tests_cant": "race window of one instruction", "anchors": ["net/echonet/local_node.go:NextTID"]}
{"id": "C56", "title": "A malformed datagram does not stop reception", "statement": "After receiving a malformed datagram, a running node still handles later well-formed datagrams.", "quantifier": "every sequence of datagrams", "why_tests_cant": "needs a malformed packet followed by others; the unit tests send only valid packets", "anchors": ["net/echonet/transport/unicast_server.go:handleUnicastUDPConnection", "net/echonet/transport/multicast_server.go:handleMulticastConnection", "net/echonet/transport/udp_socket.go:ReadMessage"]}
{"id": "C57", "title": "Datagrams arrive intact", "statement": "A message sent over UDP is received equal to the message sent.", "quantifier": "every message, of every size", "why_tests_cant": "the receive buffer limit is beyond the test messages", "anchors": ["net/echonet/transport/udp_socket.go:ReadMessage", "net/echonet/protocol/message.go:Bytes"]}
{"id": "C58", "title": "Start and Stop lifecycle", "statement": "Stop always leaves the manager not running with no servers and may be repeated; IsRunning holds after a successful Start with at least one interface address; Start first stops a running manager, so no server of an earlier Start survives.", "quantifier": "every history of Start, Stop and outcomes of the operating system calls", "why_tests_cant": "operating system outcomes are arbitrary", "anchors": ["net/echonet/transport/message_manager.go:Start", "net/echonet/transport/message_manager.go:Stop", "net/echonet/transport/message_manager.go:IsRunning", "net/echonet/transport/unicast_manager.go:Start", "net/echonet/transport/multicast_manager.go:Start"]}
{"id": "C59", "title": "A successful start binds every interface address", "statement": "When the unicast manager's Start returns no error, a server is bound on every available interface address.", "quantifier": "every list of interfaces and every outcome of bind", "why_tests_cant": "needs a bind failure on one of several interfaces", "anchors": ["net/echonet/transport/unicast_manager.go:StartWithInterfaceAndPort", "net/echonet/transport/unicast_manager.go:Start"]}
{"id": "C60", "title": "A failed start leaves nothing bound", "statement": "When Start returns an error no socket bound by it stays open.", "quantifier": "every list of interfaces and every outcome of bind", "why_tests_cant": "needs partial failures", "anchors": ["net/echonet/transport/message_manager.go:Start", "net/echonet/transport/unicast_manager.go:Start", "net/echonet/transport/unicast_server.go:Start"]}
{"id": "C61", "title": "Port selection", "statement": "Without automatic port binding the node listens only on the configured port; with it, on a port between the configured one and 100 above; Port() reports the port the last successful server uses.", "quantifier": "every configuration and every outcome of bind", "why_tests_cant": "bind outcomes are arbitrary", "anchors": ["net/echonet/transport/unicast_manager.go:Start"]}
{"id": "C62", "title": "Unicast sending tries the sockets in order", "statement": "Sending a message tries the servers in order, for each TCP before UDP when TCP is enabled, stops at the first success and fails exactly when all fail.", "quantifier": "every number of servers and every outcome", "why_tests_cant": "outcomes arbitrary", "anchors": ["net/echonet/transport/unicast_manager.go:SendMessage", "net/echonet/transport/unicast_server.go:SendMessage"]}
{"id": "C63", "title": "Configuration is taken over", "statement": "After SetConfig(c) the configuration Equals c.", "quantifier": "every configuration", "why_tests_cant": "needs every field to differ from its default", "anchors": ["net/echonet/transport/config.go:SetConfig", "net/echonet/transport/unicast_config.go:SetConfig", "net/echonet/transport/unicast_config.go:Equals"]}
{"id": "C64", "title": "Interface selection", "statement": "GetAvailableInterfaces returns exactly the interfaces that are up, not loopback, multicast capable, neither bridge nor virtual by name, and have at least one IPv4 address; it fails exactly when there is none.", "quantifier": "every list of interfaces", "why_tests_cant": "depends on the host", "anchors": ["net/echonet/transport/interface.go:GetAvailableInterfaces", "net/echonet/transport/interface.go:GetInterfaceAddresses"]}
{"id": "C65", "title": "Command line hex arguments", "statement": "The tools' hexadecimal argument parsers return the value denoted by a hexadecimal string and reject every other string.", "quantifier": "every string", "why_tests_cant": "strings unbounded", "anchors": ["net/echonet/cmd/func.go:hexStringToByte", "net/echonet/cmd/func.go:hexStringToInt"]}
{"id": "C66", "title": "Table output hides only repetitions", "statement": "Hiding duplicates in a column blanks a cell only if it repeats the value last shown above it, changes no other cell, and reading a blank as 'same as above' gives the original column back; filtering removes exactly the rows whose cells are all blank.", "quantifier": "every table", "why_tests_cant": "tables unbounded", "anchors": ["net/echonet/cmd/table_formatter.go:HideDuplicateColumns", "net/echonet/cmd/table_formatter.go:FilterEmptyRows"]}
{"id": "C67", "title": "Conditional requirements of the standard are kept", "statement": "For every property of the standard database, a device made by NewDeviceWithCode allows the Get, Set and announce service whenever the appendix requires or allows it, also when the requirement is conditional.", "quantifier": "every class, every property and each of the three services", "why_tests_cant": "there are thousands of rules; the rules 'required_c' and 'required_o' are rare and no test looks at them", "anchors": ["net/echonet/database_mra_objects.go:newStandardProperty", "net/echonet/database_mra_objects.go:initObjects"]}
{"id": "C68", "title": "A search asks for the object searched for", "statement": "SearchObject(code) multicasts a request addressed to the object with that code.", "quantifier": "every object code and every state of the controller", "why_tests_cant": "tests look only at the nodes found, and every node answers a request to the node profile", "anchors": ["net/echonet/controller.go:SearchObject", "net/echonet/controller.go:SearchObjectWithESV", "net/echonet/local_node_msssage.go:AnnounceMessage"]}
{"id": "C69", "title": "Message handlers always end", "statement": "Every received message is handled in finitely many steps of its handler: no handler waits for ever, whatever posts are pending and whenever they end.", "quantifier": "every interleaving of any number of handlers and posts", "why_tests_cant": "a leaked goroutine is not visible to a test, and the window is a few instructions", "anchors": ["net/echonet/local_node_msssage.go:PostMessage", "net/echonet/local_node_message_handler.go:ProtocolMessageReceived"]}
{"id": "C70", "title": "Requests over UDP are answered to their sender", "statement": "A request received over UDP for an object of the node is answered by one datagram, sent to the address and port the request came from, whose bytes are the frame the specification prescribes; a message to which no response is due is answered by none.", "quantifier": "every node, every message and every sender", "why_tests_cant": "sender, objects and messages are arbitrary; the tests use one sender and one port", "anchors": ["net/echonet/transport/unicast_server.go:handleUnicastUDPRequestMessage", "net/echonet/transport/multicast_server.go:handleMulticastRequestMessage", "net/echonet/transport/unicast_udp_socket.go:ResponseMessageForRequestMessage", "net/echonet/local_node_message_handler.go:ProtocolMessageReceived"]}
{"id": "C71", "title": "Announcements go out on every interface", "statement": "An announcement (of the node at its start, of a property, of a search request) is sent on every interface the node is bound to.", "quantifier": "every number of interfaces and every outcome of sending", "why_tests_cant": "depends on the interfaces of the host; test hosts have one", "anchors": ["net/echonet/local_node_msssage.go:AnnounceMessage", "net/echonet/transport/message_manager.go:AnnounceMessage", "net/echonet/transport/unicast_manager.go:AnnounceMessage"]}
{"id": "C72", "title": "Replies to multicast requests use the interface of the request", "statement": "A response to a request received by multicast is sent from the socket bound on the interface the request arrived on.", "quantifier": "every list of interfaces, every history of starts and stops", "why_tests_cant": "depends on the interfaces of the host; test hosts have one", "anchors": ["net/echonet/transport/multicast_manager.go:setUnicastManager", "net/echonet/transport/unicast_manager.go:getAppropriateServerForInterface", "net/echonet/transport/multicast_server.go:handleMulticastRequestMessage"]}
{"id": "C73", "title": "A node is running exactly when its start succeeded", "statement": "After Start of a node returned an error the node is not running; after it returned none the node is running and was announced.", "quantifier": "every history of starts and stops, every outcome of the operating system calls", "why_tests_cant": "needs failures of the operating system at a particular call", "anchors": ["net/echonet/local_node.go:Start", "net/echonet/local_node_msssage.go:Announce"]}
{"id": "C74", "title": "Requests of the command line tools", "statement": "For arguments that are hexadecimal numerals, get posts a read request addressed to exactly the object and property named, and set sends a write request that carries exactly the bytes given; other arguments are rejected and nothing is sent.", "quantifier": "every list of arguments", "why_tests_cant": "arguments are arbitrary strings; the commands have no tests without a network", "anchors": ["net/echonet/cmd/get.go", "net/echonet/cmd/set.go"]}
{"id": "C75", "title": "Tables of messages are faithful", "statement": "The row printed for a message shows transaction identifier, both objects, service and every property of it; every cell appears under its column in the JSON output, which never fails; data printed can be given back to set.", "quantifier": "every received message with any number of properties", "why_tests_cant": "messages are unbounded, and a table of several messages has the columns of one of them", "anchors": ["net/echonet/cmd/message_formatter.go:Columns", "net/echonet/cmd/message_formatter.go:Rows", "net/echonet/cmd/table.go:OutputJSON"]}
{"id": "C76", "title": "CSV output can be read back", "statement": "Splitting the CSV output at line ends and commas gives the columns and rows of the table back.", "quantifier": "every table", "why_tests_cant": "tables unbounded", "anchors": ["net/echonet/cmd/table.go:OutputCSV"]}
{"id": "C77", "title": "Names of output formats", "statement": "Exactly the strings table, json and csv are accepted as an output format, regardless of letter case and surrounding blanks; the name printed for a format is accepted again and gives the same format.", "quantifier": "every string", "why_tests_cant": "strings unbounded; case folding beyond ASCII", "anchors": ["net/echonet/cmd/format.go:NewFormatFromString", "net/echonet/cmd/format.go:String"]}
{"id": "C78", "title": "A scan lists every object once", "statement": "The table of a scan has one row for every object of every node found at the address asked for (with details, one for every property of it), with the address, port, manufacturer, code and name of that object; hiding repetitions loses nothing.", "quantifier": "every list of nodes found, every number of objects and properties and every outcome of the requests", "why_tests_cant": "depends on the nodes in the network", "anchors": ["net/echonet/cmd/controller.go:DiscoveredNodeTable", "net/echonet/cmd/scan.go"]}
{"id": "C79", "title": "Messages over TCP arrive", "statement": "A message written to a TCP connection is received by the node as it was sent, however the connection cuts the bytes into portions.", "quantifier": "every valid message and every way of cutting its bytes into portions", "why_tests_cant": "cuts depend on the network; loopback delivers short messages in one portion", "anchors": ["net/echonet/transport/tcp_socket.go:ReadMessage", "net/echonet/protocol/message_parser.go"]}
{"id": "C80", "title": "Requests over TCP are answered on their connection", "statement": "A message received over a TCP connection is handled as one received over UDP; the response, if one is due, is written on the same connection and nothing else is; bytes that are no message are not handled and not answered, and do not stop the node.", "quantifier": "every node, every message and every stream of bytes", "why_tests_cant": "streams are arbitrary", "anchors": ["net/echonet/transport/unicast_server.go:handleUnicastTCPConnection", "net/echonet/transport/tcp_socket.go:ResponseMessageToConnection", "net/echonet/local_node_message_handler.go:ProtocolMessageReceived"]}
{"id": "C81", "title": "TCP connections end", "statement": "The handling of every accepted connection ends and the connection is closed, whatever the other side does.", "quantifier": "every behaviour of the other side", "why_tests_cant": "a goroutine left behind is not visible, and an unbounded wait cannot be tested", "anchors": ["net/echonet/transport/unicast_server.go:handleUnicastTCPConnection", "net/echonet/transport/tcp_socket.go:ReadMessage"]}
{"id": "C82", "title": "TCP connections are accepted until the node stops", "statement": "While a node is running every TCP connection made to it is served.", "quantifier": "every sequence of connections and failures of accepting them", "why_tests_cant": "a failure to accept (too many open files, connection aborted) cannot be provoked in a unit test", "anchors": ["net/echonet/transport/unicast_server.go:handleUnicastTCPListener"]}
{"id": "C83", "title": "Connections dialled are closed", "statement": "Sending or posting over TCP leaves no connection open, whichever call fails; it reports success exactly when the whole message was written.", "quantifier": "every outcome of resolving, dialling, setting deadlines, writing and reading, every number of interfaces", "why_tests_cant": "needs failures of the operating system at a particular call", "anchors": ["net/echonet/transport/tcp_socket.go:dialAndWriteBytes", "net/echonet/transport/tcp_socket.go:SendMessage", "net/echonet/transport/tcp_socket.go:PostMessage", "net/echonet/transport/unicast_manager.go:PostMessage"]}
{"id": "C84", "title": "A posted request is delivered at most once", "statement": "PostMessage delivers its request at most once to the other side, also when no response comes.", "quantifier": "every number of interfaces and every outcome of the calls", "why_tests_cant": "needs several interfaces and a peer that answers too late", "anchors": ["net/echonet/transport/unicast_manager.go:PostMessage", "net/echonet/local_node_msssage.go:PostMessage"]}
{"id": "C85", "title": "Responses over TCP are matched to requests", "statement": "A message returned by PostMessage over TCP is a response to the request posted: it came on the connection of the request and has its transaction identifier.", "quantifier": "every request and everything the other side may send", "why_tests_cant": "the other side is arbitrary; the library's own nodes always answer with the right identifier", "anchors": ["net/echonet/local_node_msssage.go:postMessageSynchronously", "net/echonet/transport/tcp_socket.go:PostMessage"]}
{"id": "C86", "title": "A request that failed over TCP is sent again by UDP", "statement": "When posting over TCP does not give a response, PostMessage sends the request by UDP and waits for the response there.", "quantifier": "every number of interfaces and every outcome of the calls", "why_tests_cant": "needs a peer that accepts TCP connections but does not answer on them", "anchors": ["net/echonet/local_node_msssage.go:PostMessage", "net/echonet/transport/unicast_server.go:SendMessage"]}
{"id": "C87", "title": "Addresses are read back", "statement": "The string of an address can be parsed to the same address and port; strings that are not an address and port are refused.", "quantifier": "every IPv4 and IPv6 address, every port, every string", "why_tests_cant": "the set of addresses and of strings cannot be enumerated", "anchors": ["net/echonet/protocol/address.go:ParseString", "net/echonet/protocol/address.go:String"]}
{"id": "C88", "title": "Requests are sent as asked, responses are read as received", "statement": "NewMessage with any options, and SendRequest and PostRequest of a running node, put exactly the frame asked for on the wire: the next transaction identifier, the node profile as source, the destination and service given last, all properties in order. Properties and Property(n) of a received message give exactly the codes and data of its frame; an index out of range gives nothing.", "quantifier": "every list of options, every object code, service and list of properties that fits the format", "why_tests_cant": "option lists, property lists and identifiers are unbounded", "anchors": ["net/echonet/message.go:NewMessage", "net/echonet/message.go:Properties", "net/echonet/message.go:Property", "net/echonet/local_node_msssage.go:SendRequest", "net/echonet/local_node_msssage.go:PostRequest"]}
{"id": "C89", "title": "Reading properties of another node", "statement": "A Get request posted over UDP for readable properties of an object of another node is answered with one datagram, and the message received is taken for the response and holds exactly the properties asked, in order, with the data the object stores; the other node is not changed. A response that is handled while the post waits is what the post returns.", "quantifier": "every two nodes, object, list of readable properties whose data fit a datagram of 1024 bytes, callbacks that do nothing on reads, and history of posts and messages before", "why_tests_cant": "needs all combinations of objects, property lists, data and identifiers", "anchors": ["net/echonet/local_node_msssage.go:PostRequest", "net/echonet/local_node_message_handler.go:ProtocolMessageReceived", "net/echonet/transport/udp_socket.go:ReadMessage"]}
{"id": "C90", "title": "Writing properties of another node and reading them back", "statement": "A SetC request posted over UDP for writable properties, with data of the right size, to a node whose object listener stores what is written is answered with the data written; afterwards any node that reads properties of the object gets, for each, the data written last, and the former data for the properties not written.", "quantifier": "every two nodes, object, list of writes (repeated codes included) and list of reads that fit a datagram", "why_tests_cant": "needs all combinations of objects, property lists and data", "anchors": ["net/echonet/local_node_msssage.go:PostRequest", "net/echonet/local_node_message_handler.go:ProtocolMessageReceived", "net/echonet/property_map.go:SetPropertyData"]}
{"id": "C91", "title": "Property data used by several goroutines", "statement": "While the application changes the data of a property with SetData, the server answers requests for it. A response made during such a call carries the data as it was before or as it is after the call; after any number of concurrent SetData calls the property holds the value of one of them.", "quantifier": "every schedule of any number of SetData calls and of reads, all values and lengths", "why_tests_cant": "the interleavings cannot be enumerated, and a test almost never meets the short window between making the new array and filling it", "anchors": ["net/echonet/property.go:SetData", "net/echonet/property.go:Data", "net/echonet/property_data.go:newProtocolPropertyFrom", "net/echonet/protocol/property.go:SetData"]}
{"id": "C92", "title": "Defaults of a new device", "statement": "As documented, a new device has the mandatory properties of the device super class, with the documented default values: operation status on, installation location 0, version of the appendix, no fault, manufacturer code FFFFF0. Adding it to a node stores the manufacturer code of the node in it.", "quantifier": "every object code of the standard database, every node history before the device is added", "why_tests_cant": "over a hundred classes, and histories are unbounded", "anchors": ["net/echonet/device.go:NewDevice", "net/echonet/device.go:WithDeviceCode", "net/echonet/local_node.go:AddDevice", "net/echonet/super_object.go:NewSuperObject", "net/echonet/super_object.go:OperatingStatus"]}
{"id": "C93", "title": "A property that may be written can be written", "statement": "A write request of another node for a property with write permission of a device of the node is accepted if its data has the size of the property, from the time the device has been added.", "quantifier": "every device of the standard database, every node history, every write request", "why_tests_cant": "needs all devices, properties, sizes and histories", "anchors": ["net/echonet/local_node_message_handler.go:validateReceivedMessage", "net/echonet/property.go:Size", "net/echonet/local_node.go:AddDevice"]}
{"id": "C94", "title": "Address and port of a node", "statement": "After a successful Start, Address() and Port() of a node are the address and port of a socket the node has open, so that other nodes can be told where to reach it; after Stop Address() is empty. Equals tells nodes apart.", "quantifier": "every host, every history of starts, stops and settings, every answer of the system", "why_tests_cant": "needs hosts with several interfaces and taken ports, and all histories", "anchors": ["net/echonet/local_node.go:Address", "net/echonet/local_node.go:Port", "net/echonet/local_node.go:String", "net/echonet/node.go:nodeEquals", "net/echonet/transport/socket.go:Address"]}
{"id": "C95", "title": "Restart is a fresh start", "statement": "Restart stops the node and starts it as Start would: the same result and announcement, new sockets, the old ones closed; if stopping reports an error the node stays stopped and Restart reports it.", "quantifier": "every reachable state of the transport and every answer of the system", "why_tests_cant": "histories and failures of the system are unbounded", "anchors": ["net/echonet/local_node.go:Restart", "net/echonet/local_node.go:Start", "net/echonet/local_node.go:Stop", "net/echonet/transport/message_manager.go:Start"]}
{"id": "C96", "title": "A node recognises its own announcements", "statement": "With self messages disabled, an announcement the node sent and gets back through the multicast loop has no effect on it.", "quantifier": "every host, every history, every outcome of sending", "why_tests_cant": "needs failures of single interfaces and all messages", "anchors": ["net/echonet/local_node_message_handler.go:ProtocolMessageReceived", "net/echonet/local_node.go:Address", "net/echonet/transport/unicast_manager.go:AnnounceMessage", "net/echonet/node.go:nodeEquals"]}
{"id": "C97", "title": "A controller does not find itself", "statement": "With self messages disabled, a controller never lists itself because of a message it sent.", "quantifier": "every host, every history, every outcome of sending, every message", "why_tests_cant": "needs hosts with several interfaces, taken ports and all histories", "anchors": ["net/echonet/controller_message_listener.go:isSelfMessage", "net/echonet/controller_message_listener.go:OnMessage", "net/echonet/transport/multicast_socket.go:Bind", "net/echonet/transport/unicast_manager.go:Start"]}
{"id": "C98", "title": "A search finds every node of the network", "statement": "After a controller searches, and the answers of the nodes arrive, in any order, repeated or mixed with other messages, every node of the network is listed exactly once, under its address, with exactly the codes of its devices; if nothing but answers arrives, no other node is listed.", "quantifier": "every controller, every number of nodes with any devices, every order, repetition and mixture of arriving messages", "why_tests_cant": "networks and orders of arrival are unbounded", "anchors": ["net/echonet/controller.go:SearchAllObjects", "net/echonet/controller_message_listener.go:OnMessage", "net/echonet/local_node_message_handler.go:ProtocolMessageReceived", "net/echonet/remote_node.go:newRemoteNodeWithInstanceListMessageAndConfig"]}
{"id": "C99", "title": "Changes of announced properties are heard", "statement": "Every write to a property with announcement on a running node multicasts one message, in the order of the writes, which decodes to a notification with that object, code and data; the listener of a controller gets exactly the messages that arrive, in the order they are handled.", "quantifier": "every node and history before, every sequence of writes, every loss, repetition and reordering on the way, every controller", "why_tests_cant": "histories and networks are unbounded", "anchors": ["net/echonet/object.go:SetPropertyData", "net/echonet/local_node_msssage.go:AnnounceProperty", "net/echonet/controller_message_listener.go:OnMessage"]}
{"id": "C100", "title": "Reading and writing properties over TCP", "statement": "With TCP enabled, PostRequest for readable properties of another node writes the request once on one connection; the other node writes one answer on it and closes it; PostRequest returns the properties asked, in order, with the data stored. A SetC request to a node that stores what is written returns the data written, and whoever reads later gets the data written last, and the former data of the other properties.", "quantifier": "every two nodes, object, list of properties and data whose request and answer have at most 4096 bytes and arrive each in one portion, every transport with a started server", "why_tests_cant": "needs all combinations of objects, property lists, data and transports", "anchors": ["net/echonet/local_node_msssage.go:PostRequest", "net/echonet/local_node_msssage.go:PostMessage", "net/echonet/transport/unicast_server.go:handleUnicastTCPConnection", "net/echonet/transport/tcp_socket.go:PostMessage"]}
{"id": "C101", "title": "Messages take effect in the order they arrive", "statement": "When messages arrive at a node one after the other, they take effect in this order: after two writes to a property the node holds the data of the message that arrived last.", "quantifier": "every node, object, property and data, every sequence of messages, every schedule of the goroutines that handle them", "why_tests_cant": "the schedules cannot be enumerated, and a test rarely meets one in which a later message overtakes", "anchors": ["net/echonet/transport/unicast_server.go:handleUnicastUDPConnection", "net/echonet/transport/multicast_server.go:handleMulticastConnection", "net/echonet/local_node_message_handler.go:ProtocolMessageReceived", "net/echonet/object.go:notifyPropertyRequest"]}
{"id": "C102", "title": "Requests handled at the same time", "statement": "Requests that a node handles at the same time are carried out and answered as if they were handled one after the other, in some order; a request for an object that the others do not change is answered as if it were alone.", "quantifier": "any number of messages of any kind, every schedule of their steps and of calls of the program in between, all callbacks that keep to their object", "why_tests_cant": "interleavings are unbounded", "anchors": ["net/echonet/local_node_message_handler.go:ProtocolMessageReceived", "net/echonet/local_node_message_handler.go:executeMessageListeners", "net/echonet/local_node_message_handler.go:createResponseMessageForRequestMessage", "net/echonet/object.go:notifyPropertyRequest", "net/echonet/transport/unicast_server.go:handleUnicastUDPConnection"]}
{"id": "C103", "title": "Search lasts as long as its context", "statement": "Search multicasts one request, also if its context is already done, and reports at once if sending fails. Otherwise it returns without error, not before the context is done by its deadline or cancellation, or three seconds have passed if it has no deadline, and at most 200 ms after. Nodes whose answers were handled before are listed when it returns.", "quantifier": "every controller, context, time of the call, delay of the system and order of arriving messages", "why_tests_cant": "times, delays and arrivals cannot be enumerated", "anchors": ["net/echonet/controller.go:Search", "net/echonet/controller.go:SearchAllObjects", "net/echonet/controller_message_listener.go:OnMessage"]}
{"id": "C104", "title": "Options of a new node", "statement": "NewLocalNode with any options, in any order, makes a node that does not run and sends nothing, has the listener, configuration and manufacturer code given last (FFFFFF if none is) and exactly the devices given, in the order given. All of them and the node profile report that code, also those given before the code, and the node profile describes the node. The order of options of different kinds makes no difference.", "quantifier": "every list of options of any length, any devices", "why_tests_cant": "lists of options and devices are unbounded", "anchors": ["net/echonet/local_node.go:NewLocalNode", "net/echonet/local_node.go:WithLocalNodeManufacturerCode", "net/echonet/local_node.go:WithLocalNodeDevices", "net/echonet/local_node.go:WithLocalNodeListener", "net/echonet/local_node.go:WithLocalNodeConfig", "net/echonet/local_node.go:AddDevice"]}
{"id": "C105", "title": "Objects share nothing", "statement": "Devices, profiles and super objects made by a program share nothing: what an object shows after any calls on objects and on the properties they have is what the calls meant for this object, alone and in their order, make of a new object, and its announcements name it. Nothing a program does with its own objects and properties changes the standard database from which their properties are taken.", "quantifier": "every table of standard objects, all histories of calls on any number of objects and on pointers to properties, before and after they were added", "why_tests_cant": "histories and patterns of sharing are unbounded", "anchors": ["net/echonet/property_map.go:AddProperty", "net/echonet/property.go:SetData", "net/echonet/property.go:Copy", "net/echonet/property.go:Announce", "net/echonet/super_object.go:addStandardPropertiesWithCode", "net/echonet/database.go:LookupObject", "net/echonet/object.go:NewObject"]}
{"id": "C106", "title": "Properties changed after they were added", "statement": "A property changed through a pointer after it was added to an object is found by the object as changed: under its new code, with its new attributes listed in the property maps, and no longer after another property took its place.", "quantifier": "every history of calls, every object, property, code and attributes", "why_tests_cant": "histories are unbounded", "anchors": ["net/echonet/property.go:SetCode", "net/echonet/property.go:SetReadAttribute", "net/echonet/property_map.go:AddProperty", "net/echonet/property_map.go:LookupProperty", "net/echonet/super_object.go:updatePropertyMap"]}
{"id": "C107", "title": "Objects used by several goroutines", "statement": "A device of a running node can be used by the program while messages for it are handled: whatever calls the program makes, also AddProperty and SetCode, no goroutine uses the map of properties of the device while another one changes it, for which the Go runtime ends the process.", "quantifier": "any number of goroutines, any calls and messages, every schedule", "why_tests_cant": "schedules are unbounded and the runtime notices only some", "anchors": ["net/echonet/property_map.go:AddProperty", "net/echonet/property_map.go:LookupProperty", "net/echonet/super_object.go:AddProperty", "net/echonet/super_object.go:SetCode", "net/echonet/local_node_message_handler.go:validateReceivedMessage", "net/echonet/transport/unicast_server.go:handleUnicastUDPConnection"]}
{"id": "C108", "title": "The example light", "statement": "The example light starts with the power on, whatever manufacturer code is given. Whatever messages it gets, from anyone, and however often it is started and stopped, it never fails, its power state is on (30) or off (31), as the last write request it could carry out says, and nothing else about it changes. Switching it is announced to the group once and answered if the service has an answer, reading tells the current state, and other values and properties are refused without effect.", "quantifier": "every manufacturer code, every sequence of messages of any content, starts and stops", "why_tests_cant": "histories and messages are unbounded", "anchors": ["examples/uecholight/light_node.go:NewLightNode", "net/echonet/local_node_message_handler.go:ProtocolMessageReceived", "net/echonet/device.go:NewDevice", "net/echonet/local_node.go:NewLocalNode"]}
{"id": "C109", "title": "What the example light prints", "statement": "For each switch the example light prints one line with the property, the previous and the new state, as documented; for other requests it prints no such line.", "quantifier": "every state of the light, every request", "why_tests_cant": "needs all states and requests", "anchors": ["examples/uecholight/light_node.go:NewLightNode", "examples/uecholight/logger.go:OutputMessage", "doc/examples.md"]}
{"id": "C110", "title": "Arguments of the post tool", "statement": "Called as documented with an address, an object, a service and properties (code, size and data), uechopost posts exactly this request; with other arguments nothing is sent.", "quantifier": "every list of arguments", "why_tests_cant": "arguments are arbitrary strings, and the program has no tests without a network", "anchors": ["examples/uechopost/uechopost.go:main", "doc/examples.md", "net/echonet/message.go:NewMessage"]}
{"id": "C111", "title": "Stopping ends reception", "statement": "Once Stop has returned, no message is handled any more: none that had arrived before, and none that comes on a connection accepted before.", "quantifier": "every set of servers, every schedule of the receive goroutines, the goroutines of messages and connections, the peers and any number of calls of Stop", "why_tests_cant": "depends on how goroutines and calls are interleaved", "anchors": ["net/echonet/transport/message_manager.go:Stop", "net/echonet/transport/unicast_server.go:Stop", "net/echonet/transport/multicast_server.go:Stop", "net/echonet/transport/udp_socket.go:Close"]}
{"id": "C112", "title": "Stop from several goroutines", "statement": "Stop may be called at any time and from any number of goroutines. The process goes on, and every call returns.", "quantifier": "every set of servers, every schedule of any number of calls of Stop and of the goroutines of the node", "why_tests_cant": "depends on how the calls are interleaved", "anchors": ["net/echonet/transport/message_manager.go:Stop", "net/echonet/transport/unicast_manager.go:Stop", "net/echonet/transport/multicast_manager.go:Stop", "net/echonet/transport/unicast_server.go:Stop"]}
{"id": "C113", "title": "Replies leave from the node's port", "statement": "Every reply to a datagram is sent to the sender of the request from the port of the unicast server that received it, or that belongs to the multicast server which did.", "quantifier": "every set of servers, every request and reply, every schedule", "why_tests_cant": "depends on what Stop has done when the reply is sent", "anchors": ["net/echonet/transport/unicast_server.go:handleUnicastUDPRequestMessage", "net/echonet/transport/multicast_server.go:handleMulticastRequestMessage", "net/echonet/transport/udp_socket.go:SendBytes"]}
{"id": "C114", "title": "Requests are answered from the moment the node can be reached", "statement": "When the sockets of a node are open, a request that is received and has an answer gets it, unless the node is stopped.", "quantifier": "every set of servers, every request and reply, every schedule of a starting node", "why_tests_cant": "depends on how far Start has come when a request arrives", "anchors": ["net/echonet/transport/message_manager.go:Start", "net/echonet/transport/multicast_manager.go:setUnicastManager", "net/echonet/transport/multicast_server.go:handleMulticastRequestMessage"]}
{"id": "C115", "title": "How a message came", "statement": "A listener can tell how each message came: whether it was multicast, came to the node alone over UDP, or over TCP, from which address, and for datagrams at which interface. Exactly one of the three is said.", "quantifier": "every sequence of datagrams and errors at a server, every connection, every node and its callbacks", "why_tests_cant": "ranges over everything that can arrive and over all servers", "anchors": ["net/echonet/protocol/message.go:IsMulticastPacket", "net/echonet/protocol/message.go:IsUDPUnicastPacket", "net/echonet/protocol/message.go:IsTCPUnicastPacket", "net/echonet/transport/unicast_server.go:handleUnicastTCPConnection", "net/echonet/transport/multicast_server.go:handleMulticastConnection"]}
{"id": "C116", "title": "Renumbering a device of a node", "statement": "When the code of a device of a node is changed, requests and the lists in the node profile follow the new code.", "quantifier": "every history of calls on a node, every device of it and every call that changes the code of the device", "why_tests_cant": "ranges over all histories and all codes", "anchors": ["net/echonet/super_object.go:SetCode", "net/echonet/object.go:SetInstanceCode", "net/echonet/local_node.go:updateNodeProfile", "net/echonet/local_node.go:AddDevice"]}
{"id": "C117", "title": "Every device of a node can be addressed", "statement": "Each device and profile of a node can be reached by messages: a request with its code is answered from its properties and calls its listeners.", "quantifier": "every node, every object of it, every message and every set of callbacks", "why_tests_cant": "ranges over all nodes and messages", "anchors": ["net/echonet/base_node.go:LookupObject", "net/echonet/base_node.go:LookupDevice", "net/echonet/local_node.go:AddDevice", "net/echonet/local_node_message_handler.go:ProtocolMessageReceived"]}
{"id": "C118", "title": "Messages for objects a node does not have", "statement": "A message for an object the node does not have is discarded: no callback is called, nothing changes and no answer is sent (basic sequence 4.2.2 (A), listed as supported in doc/device_inside.md). So a multicast request is answered only by nodes that have the object.", "quantifier": "every node, every message for an object it does not have, every set of callbacks", "why_tests_cant": "ranges over all nodes and all messages", "anchors": ["net/echonet/local_node_message_handler.go:ProtocolMessageReceived", "net/echonet/local_node_message_handler.go:validateReceivedMessage", "net/echonet/protocol/message.go:NewImpossibleMessageWithMessage"]}
{"id": "C119", "title": "Requests that can be processed in part", "statement": "Of a request for several properties, those that can be processed are processed, and the answer tells which ones were not (basic sequence 4.2.2 (C)).", "quantifier": "every node, every request, every choice of properties that can and can not be processed", "why_tests_cant": "ranges over all nodes and all requests", "anchors": ["net/echonet/local_node_message_handler.go:validateReceivedMessage", "net/echonet/local_node_message_handler.go:executeMessageListeners", "net/echonet/local_node_message_handler.go:ProtocolMessageReceived"]}
{"id": "C120", "title": "Responses to writes hold no data", "statement": "The response to a write request, and to a notification that asks for a response, names the properties of the request and holds no data (doc/examples.md: WRITE RES, no data).", "quantifier": "every node, every accepted request, every set of callbacks", "why_tests_cant": "ranges over all nodes and all requests", "anchors": ["net/echonet/local_node_message_handler.go:createResponseMessageForRequestMessage", "net/echonet/protocol/message.go:NewResponseMessageWithMessage"]}
{"id": "C121", "title": "Properties that may not be read stay private", "statement": "No answer holds the data of a property which may not be read.", "quantifier": "every node, every message, every property", "why_tests_cant": "ranges over all nodes, messages and attributes", "anchors": ["net/echonet/local_node_message_handler.go:validateReceivedMessage", "net/echonet/local_node_message_handler.go:createResponseMessageForRequestMessage", "net/echonet/property.go:IsAvailableService"]}
{"id": "C122", "title": "Requests to write and read", "statement": "A request to write some properties and read others (SetGet) can be sent, and one that is received is answered with the properties to read.", "quantifier": "every list of properties to write and to read", "why_tests_cant": "ranges over all frames of the service", "anchors": ["net/echonet/protocol/message.go:Message", "net/echonet/protocol/message_parser.go:ParseBytes", "net/echonet/local_node_message_handler.go:createResponseMessageForRequestMessage"]}
{"id": "C123", "title": "Requests for notifications are checked", "statement": "A request for a notification is answered with the data of the properties named; if the object does not have or does not announce one of them, it is refused.", "quantifier": "every node, every request for notifications, every set of callbacks", "why_tests_cant": "ranges over all nodes and all requests", "anchors": ["net/echonet/local_node_message_handler.go:validateReceivedMessage", "net/echonet/protocol/esv.go:IsNotificationRequest", "net/echonet/property.go:IsAvailableService"]}
{"id": "C124", "title": "Write requests do not change sizes", "statement": "A write request with data of another size than the property has is refused and changes nothing. In a program that stores what write requests hold, the data of every property keeps its size for ever, however many messages are handled at once.", "quantifier": "every node, every message, every schedule of handlers", "why_tests_cant": "ranges over all messages and all interleavings of their handlers", "anchors": ["net/echonet/local_node_message_handler.go:validateReceivedMessage", "net/echonet/local_node_message_handler.go:executeMessageListeners", "net/echonet/object.go:SetPropertyData"]}
{"id": "C125", "title": "Properties that may not be written keep their data", "statement": "In a program that stores what write requests hold, the data of a property which may not be written stays as it is, whatever arrives, unless the program itself writes it.", "quantifier": "every node, every property, every history of messages and calls, every schedule", "why_tests_cant": "ranges over all histories and interleavings", "anchors": ["net/echonet/local_node_message_handler.go:validateReceivedMessage", "net/echonet/local_node_message_handler.go:executeMessageListeners", "net/echonet/property.go:IsAvailableService"]}
{"id": "C126", "title": "Listings of the standard database are complete", "statement": "Objects and Manufactures list each entry of the standard database exactly once, in whatever order, and list exactly the entries that are found by their code.", "quantifier": "every order a map may be traversed in, every table of objects and manufacturers", "why_tests_cant": "the order of a map differs between runs", "anchors": ["net/echonet/database.go:Objects", "net/echonet/database.go:Manufactures", "net/echonet/database.go:LookupObject", "net/echonet/database.go:LookupManufacture"]}
{"id": "C127", "title": "Addresses of a running node", "statement": "Addresses lists exactly the addresses at which the node can be reached: none when the node does not run, otherwise those its sockets are bound to.", "quantifier": "every history of starts and stops, every behaviour of the interfaces and sockets of the system", "why_tests_cant": "depends on the interfaces of the machine and on sockets that fail", "anchors": ["net/echonet/transport/message_manager.go:Addresses", "net/echonet/transport/message_manager.go:Start", "net/echonet/transport/message_manager.go:Stop", "net/echonet/controller.go:Controller"]}
{"id": "C128", "title": "A post returns within the request timeout", "statement": "PostMessage returns within the request timeout of the node, with the answer or with an error.", "quantifier": "every number of posts, every schedule, every request timeout", "why_tests_cant": "ranges over all numbers of posts and all schedules", "anchors": ["net/echonet/local_node_msssage.go:PostMessage", "net/echonet/transport/unicast_config.go:RequestTimeout"]}
{"id": "C129", "title": "Messages leave from the bound port", "statement": "The UDP and TCP sockets of a started node are bound to the same port on each interface. Every datagram the node sends leaves from the port that Port() returns.", "quantifier": "every history of starts, stops and configurations, every behaviour of the interfaces and sockets of the system", "why_tests_cant": "depends on which ports are taken on which interface of the machine", "anchors": ["net/echonet/transport/unicast_manager.go:SendMessage", "net/echonet/transport/unicast_manager.go:AnnounceMessage", "net/echonet/transport/unicast_server.go:Start", "net/echonet/transport/message_manager.go:Port"]}
{"id": "C130", "title": "Notifications that ask for a response", "statement": "A notification that asks for a response (INFC) for an object of a node is handed to the listeners with its properties and acknowledged by INFC_Res with the same identifier, naming the notified properties without data.", "quantifier": "every node, every behaviour of its callbacks, every INFC message", "why_tests_cant": "the answer is made by the code that answers reads, and depends on which properties the receiving object happens to have", "anchors": ["net/echonet/local_node_message_handler.go:validateReceivedMessage", "net/echonet/local_node_message_handler.go:executeMessageListeners", "net/echonet/local_node_message_handler.go:createResponseMessageForRequestMessage"]}
{"id": "C131", "title": "Multicast is heard on the ECHONET Lite port", "statement": "Whatever port a node uses for itself, it hears multicast on port 3610 in the group of each address family. After a successful start it does so on every address of every interface it found.", "quantifier": "every history of starts, stops and configurations, every behaviour of the interfaces and sockets of the system", "why_tests_cant": "depends on the interfaces of the machine and on which ports are taken", "anchors": ["net/echonet/transport/multicast_socket.go:Bind", "net/echonet/transport/multicast_manager.go:Start", "net/echonet/transport/multicast_server.go:Start"]}
{"id": "C132", "title": "Each datagram is handled once", "statement": "While a node is running, the node handles each datagram that reaches one of its sockets exactly once, in order of arrival, with the bytes and the sender it came with.", "quantifier": "every number of interfaces, every interleaving of arrivals, receive goroutines, handlers and calls of Stop, every content of the datagrams", "why_tests_cant": "depends on the interleaving of goroutines and on every earlier datagram", "anchors": ["net/echonet/transport/unicast_server.go:handleUnicastUDPConnection", "net/echonet/transport/multicast_server.go:handleMulticastConnection", "net/echonet/transport/udp_socket.go:ReadMessage"]}
{"id": "C133", "title": "Version and identification of a node", "statement": "After SetVersion(major, minor) the version information of a node profile has the declared four bytes and holds both numbers. After SetID(code) the identification number has the declared 17 bytes and holds the manufacturer code. Nothing else changes, and a profile without the property reports an error.", "quantifier": "every node profile, every version and every manufacturer code", "why_tests_cant": "an example of one version does not show what is lost for every other", "anchors": ["net/echonet/node_profile.go:SetVersion", "net/echonet/node_profile.go:SetID"]}
{"id": "C134", "title": "Class and kind of an object", "statement": "For every object, Class() is the class of its code, Code() is composed of group, class and instance, IsProfile() holds exactly for the group 0x0E and IsDevice() for all others, and two classes are equal exactly when group and class code are. IsNodeProfile() holds exactly for the codes 0x0EF001 and 0x0EF002, IsReadOnly() exactly for 0x0EF002. None of these panics.", "quantifier": "every history of calls on an object, all codes", "why_tests_cant": "there are 2^24 codes and any order of the calls that set them", "anchors": ["net/echonet/object.go:Class", "net/echonet/object.go:IsProfile", "net/echonet/object.go:IsDevice", "net/echonet/class.go:Equals", "net/echonet/profile.go:IsNodeProfile", "net/echonet/node_profile.go:IsReadOnly"]}
{"id": "C135", "title": "Equality and copies of properties", "statement": "Two properties are equal for Equals exactly when code and data are the same. A copy has the name, code and permissions of the original and no data. The properties made for a list of codes have these codes in order and no data.", "quantifier": "all properties, all services, all lists of codes", "why_tests_cant": "ranges over all data and all permissions", "anchors": ["net/echonet/property.go:Equals", "net/echonet/property.go:Copy", "net/echonet/protocol/property.go:NewPropertiesWithCodes"]}
{"id": "C136", "title": "Nodes are found by their address", "statement": "LookupNode finds every node of Nodes() by its address, and none when no node has the address.", "quantifier": "every history of messages, starts, configurations and searches of a controller", "why_tests_cant": "depends on everything the controller heard before", "anchors": ["net/echonet/controller.go:LookupNode", "net/echonet/controller_message_listener.go:addNode", "net/echonet/remote_node.go:newRemoteNodeWithInstanceListMessageAndConfig"]}
{"id": "C137", "title": "Text forms of codes and messages", "statement": "The text of an object code is its six hexadecimal digits, different codes have different texts, and the text of a message is the hexadecimal form of its bytes. What the scan command prints can be typed into the get and set commands: it selects the same object and the same property.", "quantifier": "all object codes, services, messages and reads", "why_tests_cant": "there are 2^24 object codes and unboundedly many messages", "anchors": ["net/echonet/protocol/object.go:String", "net/echonet/protocol/esv.go:String", "net/echonet/protocol/message.go:String", "net/echonet/cmd/scan.go", "net/echonet/cmd/get.go", "net/echonet/cmd/set.go"]}
{"id": "C138", "title": "Text form of a node", "statement": "Two nodes have the same text exactly when they have the same address and port, that is exactly when Equals says so, and the text of a node read back gives its address and port.", "quantifier": "all pairs of nodes, IPv4 and IPv6 addresses with and without a zone, all ports", "why_tests_cant": "ranges over all pairs of addresses and ports", "anchors": ["net/echonet/remote_node.go:String", "net/echonet/local_node.go:String", "net/echonet/protocol/address.go:NewAddressWithString"]}
{"id": "C139", "title": "Codes printed by the example programs", "statement": "The example programs uechosearch, uechobench and uechopost print the hexadecimal digits of the codes of objects, services and properties and of the data of properties, and what uechopost prints for a property can be given to it as an argument.", "quantifier": "all objects, services, properties and messages", "why_tests_cant": "there are 2^24 object codes; the formatting of the codes depends on the methods of their types", "anchors": ["examples/uechosearch/uechosearch.go:main", "examples/uechobench/uechobench.go:main", "examples/uechopost/uechopost.go:outputTransportMessage", "net/echonet/protocol/object.go:String", "net/echonet/protocol/esv.go:String"]}
{"id": "C140", "title": "Listing of the example programs", "statement": "uechosearch lists every node found, every object of it, and every property that has to be readable, with the manufacturer and the data the node answered or the error of the request. It sends one request for the manufacturer of each node and one for each of these properties. uechobench does so in every round for all properties that may be read.", "quantifier": "all lists of nodes, all answers, any number of rounds", "why_tests_cant": "ranges over all nodes and all answers to the requests", "anchors": ["examples/uechosearch/uechosearch.go:main", "examples/uechobench/uechobench.go:main"]}
{"id": "C141", "title": "What a failed post returns", "statement": "When PostMessage returns an error the message it returns is nil, and when it returns no error the message is not nil and can be read.", "quantifier": "all nodes, messages, transports, connections and answers", "why_tests_cant": "a test of one timeout does not show what is returned for each way to fail", "anchors": ["net/echonet/local_node_msssage.go:PostMessage", "net/echonet/message.go:newMessageWithProtocolMessage"]}
{"id": "C142", "title": "Source of a received message", "statement": "SourceAddress and SourcePort of a received message are those of the peer that sent it, over UDP and TCP and for IPv4 and IPv6, different peers have different sources, and the response to a request goes to the address it came from.", "quantifier": "all peers: IPv4 and IPv6 addresses, with and without a zone, all ports", "why_tests_cant": "ranges over all addresses; depends on the text form of addresses in the standard library", "anchors": ["net/echonet/transport/udp_socket.go:ReadMessage", "net/echonet/transport/tcp_socket.go:ReadMessage", "net/echonet/transport/unicast_udp_socket.go:ResponseMessageForRequestMessage", "net/echonet/protocol/address.go:ParseString", "net/echonet/protocol/message.go:SourceAddress"]}
{"id": "C143", "title": "Classes made by options", "statement": "NewClass never crashes; the class it returns has the group code and the class code of the last options that gave them and zero when none did, and a class does not change after it was made.", "quantifier": "all lists of class options, all bytes, all writes into the bytes returned", "why_tests_cant": "ranges over all lists of options in all orders and all lengths of the bytes given", "anchors": ["net/echonet/class.go:NewClass", "net/echonet/class.go:WithClassBytes", "net/echonet/class.go:WithClassCode", "net/echonet/class.go:WithClassGroupCode", "net/echonet/class.go:Bytes"]}
{"id": "C144", "title": "Devices made later are standard", "statement": "Whatever a program did before with its objects and with the entries it looked up in the standard database, a device made of a code is the one a fresh program makes of it.", "quantifier": "all tables, all histories of calls on objects, properties and database entries, all codes", "why_tests_cant": "ranges over all histories; the database is shared by everything in the process", "anchors": ["net/echonet/init.go:SharedStandardDatabase", "net/echonet/database.go:LookupObject", "net/echonet/super_object.go:addStandardPropertiesWithCode", "net/echonet/property.go:Copy", "net/echonet/device.go:NewDeviceWithCode"]}
{"id": "C145", "title": "Status of a socket", "statement": "A UDP, multicast or TCP socket reports the interface, the address and the port of the last successful Bind as long as it is open, and reports that it is not bound before a Bind, after Close and after a failed Bind; it is open exactly after a successful Bind that was not followed by Close.", "quantifier": "all histories of Bind and Close on each kind of socket, all answers of the operating system", "why_tests_cant": "ranges over all histories and all places at which the operating system can fail", "anchors": ["net/echonet/transport/socket.go:IsBound", "net/echonet/transport/socket.go:Port", "net/echonet/transport/socket.go:IPAddr", "net/echonet/transport/udp_socket.go:Close", "net/echonet/transport/tcp_socket.go:Bind", "net/echonet/transport/tcp_socket.go:Close", "net/echonet/transport/unicast_udp_socket.go:Bind", "net/echonet/transport/multicast_socket.go:Bind"]}
{"id": "C146", "title": "Which nodes announce a device", "statement": "Every running node that has a device announces a change of it, exactly once, and no other node does.", "quantifier": "all histories of AddDevice, SetParentNode, Start and Stop over any number of nodes and devices", "why_tests_cant": "ranges over all histories of calls on all nodes of a program", "anchors": ["net/echonet/local_node.go:AddDevice", "net/echonet/object.go:SetParentNode", "net/echonet/property.go:Announce", "net/echonet/property.go:Node"]}
{"id": "C147", "title": "A run of the command line tool", "statement": "A command with a bad argument does nothing. get and set send at most one request, that of their arguments, to the first node found at the address given. A get that succeeds has printed the answer in the format asked for, a scan that succeeds the table of the nodes found; a set that succeeds has changed the device. A command that fails has printed nothing and leaves no controller running.", "quantifier": "all arguments, all nodes found, all answers of nodes and failures of starting, searching, sending and stopping", "why_tests_cant": "ranges over all arguments and all places at which a run can fail", "anchors": ["net/echonet/cmd/get.go:getCmd", "net/echonet/cmd/set.go:setCmd", "net/echonet/cmd/scan.go:scanCmd", "net/echonet/cmd/controller.go:DiscoverNodes", "net/echonet/controller.go:LookupNode"]}
{"id": "C148", "title": "Posts one after the other", "statement": "When posts are made one after the other and each received message is handled before the next thing happens, every post over UDP returns the first message that arrived with the identifier of its request and is not that request, a timeout when there is none, and an error when it was not sent; no other message disturbs it, and afterwards the node is ready for the next post.", "quantifier": "all sequences of posts, all messages, all identifiers, all sequences of messages that arrive in between", "why_tests_cant": "ranges over all sequences of posts and messages", "anchors": ["net/echonet/local_node_msssage.go:PostMessage", "net/echonet/local_node_msssage.go:isResponseMessage", "net/echonet/local_node_msssage.go:setResponseMessage", "net/echonet/local_node_message_handler.go:ProtocolMessageReceived"]}
{"id": "C149", "title": "Which addresses and ports a node listens on", "statement": "On a host whose interfaces, addresses and free ports do not change, and which lets a node bind an address again while trying, a start with a fixed port listens, on each interface, on the addresses before the first whose port is taken; it succeeds exactly when the port is free on all addresses of the last interface, and otherwise leaves behind what each of its attempts bound. With automatic ports it takes the first of the 101 ports from the configured one that is free on the last interface, reports it, and also listens on what the ports tried before bound.", "quantifier": "all hosts (interfaces, addresses, free ports), all reachable states of the node, TCP on or off, all ports", "why_tests_cant": "ranges over all hosts and all histories before the start", "anchors": ["net/echonet/transport/unicast_manager.go:StartWithInterfaceAndPort", "net/echonet/transport/unicast_manager.go:Start", "net/echonet/transport/message_manager.go:Start"]}
{"id": "C150", "title": "The object a request handler gets", "statement": "The object that a request handler or listener is given, and that a property names as its object, stands for the device: AddProperty, SetCode and SetCodes on it do the same as on the device, so that the property maps list the properties and a standard class brings its properties.", "quantifier": "every device, every history of calls on the device and on the object a handler gets, every property added and every code set", "why_tests_cant": "ranges over all histories and property attributes; the two objects look the same to a reader of the interface", "anchors": ["net/echonet/object.go:notifyPropertyRequest", "net/echonet/super_object.go:AddProperty", "net/echonet/super_object.go:SetCode", "net/echonet/property_map.go:AddProperty", "net/echonet/property.go:Object"]}
{"id": "C151", "title": "Callbacks that change the message", "statement": "What a listener or request handler does to the message or property it is given changes neither which callbacks are called for it nor the reply of the node.", "quantifier": "every node, message, set of callbacks and everything callbacks may do to the message, its properties and the node", "why_tests_cant": "ranges over all callbacks and messages; the callbacks share the message with the code that handles it", "anchors": ["net/echonet/local_node_message_handler.go:executeMessageListeners", "net/echonet/local_node_message_handler.go:createResponseMessageForRequestMessage", "net/echonet/object.go:notifyPropertyRequest"]}
{"id": "C152", "title": "Callbacks set while a message is handled", "statement": "A listener or request handler that is set or removed while a message is handled counts from the next call on: what was removed is not called any more, what was set is called for the properties still to come.", "quantifier": "every node, message, set of callbacks and everything callbacks may do, including setting and removing callbacks", "why_tests_cant": "ranges over all callbacks and messages of any number of properties", "anchors": ["net/echonet/object.go:SetListener", "net/echonet/object.go:SetRequestHandler", "net/echonet/object.go:notifyPropertyRequest", "net/echonet/local_node.go:SetListener"]}
{"id": "C153", "title": "Lists handed out", "statement": "The lists Devices, Profiles, Nodes, Objects and Properties return are the program's own: they keep their elements whatever is added later, and a program that writes or appends to them changes nothing in the node, controller or message.", "quantifier": "every history of any number of lists of the library, of calls that return them, and of the program writing, appending to and slicing the lists it holds, whatever room the runtime leaves in arrays", "why_tests_cant": "ranges over all histories and all choices of the runtime when an array grows; shared arrays show only in particular lengths", "anchors": ["net/echonet/base_node.go:Devices", "net/echonet/base_node.go:Profiles", "net/echonet/base_node.go:Objects", "net/echonet/base_node.go:AddDevice", "net/echonet/controller.go:Nodes", "net/echonet/protocol/message.go:Properties", "net/echonet/protocol/message.go:AddProperty"]}
{"id": "C154", "title": "Lists of nodes read while messages arrive", "statement": "A list Nodes returned while messages are handled holds nodes whose messages arrived, none of them nil and none twice, and keeps its elements.", "quantifier": "every schedule of any number of message handlers and of calls of Nodes, Clear and Start, whatever room the runtime leaves in arrays", "why_tests_cant": "depends on how the handlers are scheduled and on the room in the array", "anchors": ["net/echonet/controller.go:Nodes", "net/echonet/controller.go:Clear", "net/echonet/controller_message_listener.go:addNode"]}
{"id": "C155", "title": "Controller listeners that act on the controller", "statement": "What a controller listener does to the controller while it is called takes effect at once: a node reported to a listener is listed already, a listener removed when told of a node is not told of the message, nodes cleared in a call are gone and found again by their next message. Whatever listeners do, no node is listed twice.", "quantifier": "every controller, message and listener, with any clearing, starting, stopping, configuring and setting of listeners in each of its calls, and every history of messages", "why_tests_cant": "ranges over everything listeners may do and histories of any length", "anchors": ["net/echonet/controller_message_listener.go:OnMessage", "net/echonet/controller_message_listener.go:addNode", "net/echonet/controller.go:SetListener", "net/echonet/controller.go:Clear"]}
{"id": "C156", "title": "Starting ends", "statement": "Starting the transport ends, whatever the system answers: the attempts at binding the port are repeated as often as configured and no more.", "quantifier": "every number of retries, set of interfaces and behaviour of the operating system", "why_tests_cant": "ranges over all 64-bit numbers of retries and all answers of the system; a test cannot wait for ever", "anchors": ["net/echonet/transport/unicast_manager.go:Start", "net/echonet/transport/unicast_config.go:SetBindRetryCount"]}
{"id": "C157", "title": "A node works with the configuration it shows", "statement": "TCP, the connection timeout and automatic port binding, as the configuration of a node shows them, are what its transport and its running servers work with.", "quantifier": "every history of making, changing and giving configurations, starting and stopping", "why_tests_cant": "ranges over all histories; the configuration is shared between the program and the node", "anchors": ["net/echonet/local_node.go:SetConfig", "net/echonet/config.go:newDefaultConfig", "net/echonet/transport/config.go:SetConfig", "net/echonet/transport/unicast_manager.go:StartWithInterfaceAndPort"]}
{"id": "C158", "title": "A post returns the answer to its own request", "statement": "Whatever datagrams the network loses, delays, repeats or reorders, a response that a post returns was made by the node asked, for the request of this post, between the call and the return; a read returns the data that the properties had together at one moment between call and return.", "quantifier": "every history of posts, arriving datagrams, timeouts, other messages and changes of the node asked", "why_tests_cant": "ranges over all histories of two nodes and the network between them", "anchors": ["net/echonet/local_node_msssage.go:PostMessage", "net/echonet/local_node_msssage.go:isResponseMessage", "net/echonet/local_node.go:NextTID", "net/echonet/local_node_message_handler.go:ProtocolMessageReceived"]}
{"id": "C159", "title": "Confirmed writes last", "statement": "A write that was confirmed took effect between its call and its return, and the properties keep the data written until another request or call changes them; requests take effect in the order of their posts, each at most once.", "quantifier": "every history of posts, arriving datagrams, timeouts, other messages and changes of the node asked", "why_tests_cant": "ranges over all histories of two nodes and the network between them", "anchors": ["net/echonet/local_node_msssage.go:PostMessage", "net/echonet/local_node_message_handler.go:ProtocolMessageReceived", "net/echonet/transport/unicast_server.go:handleUnicastUDPRequestMessage"]}
{"id": "C160", "title": "A reply shows the object at one moment", "statement": "The reply to a request lists the properties with the data that the object held together at one moment between the arrival of the request and the reply.", "quantifier": "every interleaving of messages being handled and calls of the program", "why_tests_cant": "ranges over all schedules of the goroutines that handle messages", "anchors": ["net/echonet/local_node_message_handler.go:ProtocolMessageReceived", "net/echonet/local_node_message_handler.go:createResponseMessageForRequestMessage", "net/echonet/local_node_message_handler.go:validateReceivedMessage"]}
{"id": "C161", "title": "A read of a node that handles several messages at once shows one moment", "statement": "PostRequest for properties of an object of another node returns, whatever the network loses, delays, repeats or reorders and whatever else that node is handling, the data that the object held together at one moment between the call and the return, or a refusal.", "quantifier": "every history of two nodes, every interleaving of the goroutines of the node asked, and every delivery of datagrams", "why_tests_cant": "ranges over all network behaviours and all schedules of the goroutines", "anchors": ["net/echonet/local_node_msssage.go:PostRequest", "net/echonet/local_node_msssage.go:PostMessage", "net/echonet/local_node_message_handler.go:ProtocolMessageReceived", "net/echonet/transport/unicast_server.go:handleUnicastUDPRequestMessage", "net/echonet/transport/unicast_server.go:handleUnicastUDPConnection"]}
{"id": "C162", "title": "What handling a message does to the node while others are handled too", "statement": "However the goroutines of a node are interleaved, the goroutine that handles one message changes the node only by what the program's callbacks do when it calls them. It calls none and changes nothing if the message is ignored, if it is refused, for a reason that held at a moment after the message had arrived, or if the object is gone. Otherwise the object permitted what was asked for, property by property, and was found again at a later moment; then the callbacks due for that object are called, each once and in order, each when the one before has finished, and if one reports an error there is no reply.", "quantifier": "every node, program, message and interleaving of goroutines and calls of the program", "why_tests_cant": "ranges over all schedules of any number of goroutines", "anchors": ["net/echonet/local_node_message_handler.go:ProtocolMessageReceived", "net/echonet/local_node_message_handler.go:validateReceivedMessage", "net/echonet/local_node_message_handler.go:executeMessageListeners", "net/echonet/local_node_message_handler.go:createResponseMessageForRequestMessage"]}
{"id": "C163", "title": "A confirmed write was in force", "statement": "If PostRequest for a write of properties of an object of another node, whose program stores what is written, returns a confirmation, there was a moment between the call and the return at which the object held all data of the request.", "quantifier": "every history of two nodes, every interleaving of the goroutines of the node asked, and every delivery of datagrams", "why_tests_cant": "ranges over all network behaviours and all schedules of the goroutines", "anchors": ["net/echonet/local_node_msssage.go:PostRequest", "net/echonet/local_node_msssage.go:PostMessage", "net/echonet/local_node_message_handler.go:ProtocolMessageReceived", "net/echonet/local_node_message_handler.go:executeMessageListeners", "net/echonet/transport/unicast_server.go:handleUnicastUDPRequestMessage"]}
{"id": "C164", "title": "The nodes of a program are independent of each other", "statement": "A program has several local nodes and objects. What a node holds and which messages it hands to the transport depend only on the calls made on the node, on its node profile and on the devices and profiles added to it: all other calls, on other nodes and objects, in between, can be left out.", "quantifier": "all histories of calls on any number of nodes and objects of one program", "why_tests_cant": "ranges over all histories of all nodes of a program", "anchors": ["net/echonet/local_node.go:AddDevice", "net/echonet/local_node.go:AddProfile", "net/echonet/local_node.go:SetManufacturerCode", "net/echonet/local_node.go:updateNodeProfile", "net/echonet/base_node.go:AddDevice", "net/echonet/object.go:SetParentNode"]}
{"id": "C165", "title": "Adding a device a node has already changes nothing", "statement": "AddDevice with a device that the node has already leaves the node as it is: Devices lists it once, the node profile reports as many instances as before, and every lookup finds the same object.", "quantifier": "every history of calls, every node and every device of it", "why_tests_cant": "ranges over all histories", "anchors": ["net/echonet/local_node.go:AddDevice", "net/echonet/base_node.go:AddDevice", "net/echonet/base_node.go:LookupObject", "net/echonet/local_node.go:updateNodeProfile"]}
{"id": "C166", "title": "A message that no post takes is handled to its end", "statement": "Once a message has arrived that is not handed to a waiting post (C69), its handling comes to its end, without a crash, whatever other messages are handled meanwhile and whatever the program calls: after a number of its own steps that depends only on the number of its properties and on the number of calls its callbacks make.", "quantifier": "all messages, nodes, callbacks and schedules", "why_tests_cant": "ranges over all schedules of concurrent handlers and calls", "anchors": ["net/echonet/local_node_message_handler.go:ProtocolMessageReceived", "net/echonet/local_node_message_handler.go:validateReceivedMessage", "net/echonet/local_node_message_handler.go:executeMessageListeners", "net/echonet/local_node_message_handler.go:createResponseMessageForRequestMessage", "net/echonet/transport/unicast_server.go:handleUnicastUDPRequestMessage"]}
{"id": "C167", "title": "A post whose request and reply are delivered returns the reply", "statement": "A post whose service requires a response is answered if its request arrives: the node asked sends a reply, whatever else it handles meanwhile, and when this arrives and is handed over while the post still waits, the post returns it. The callbacks of the node asked return no errors, and the object asked does not go away meanwhile.", "quantifier": "all pairs of nodes, all histories of posts, messages, calls and deliveries, all requests with a service that requires a response", "why_tests_cant": "ranges over all schedules of two nodes and the network", "anchors": ["net/echonet/local_node_msssage.go:PostRequest", "net/echonet/local_node_msssage.go:PostMessage", "net/echonet/local_node_msssage.go:isResponseMessage", "net/echonet/local_node_message_handler.go:ProtocolMessageReceived", "net/echonet/transport/unicast_server.go:handleUnicastUDPRequestMessage"]}
{"id": "C168", "title": "The last announcement tells the current data", "statement": "When several goroutines have written an announced property of a node in service and all calls have returned, the last announcement sent holds the data the property holds.", "quantifier": "all nodes, properties, values, numbers of goroutines and schedules", "why_tests_cant": "ranges over all schedules of any number of goroutines", "anchors": ["net/echonet/property_map.go:SetPropertyData", "net/echonet/property.go:SetData", "net/echonet/property.go:Announce", "net/echonet/local_node_msssage.go:AnnounceProperty", "net/echonet/local_node_msssage.go:AnnounceMessage"]}
{"id": "C169", "title": "A network comes to rest", "statement": "When the programs of all nodes do nothing but answer callbacks, the messages that are on their way lead to finitely many further messages.", "quantifier": "all networks, nodes, messages on their way, callbacks that write properties, and orders of arrival and loss", "why_tests_cant": "ranges over endless executions of any number of nodes", "anchors": ["net/echonet/local_node_message_handler.go:ProtocolMessageReceived", "net/echonet/property.go:SetData", "net/echonet/property.go:Announce", "net/echonet/local_node_msssage.go:AnnounceMessage", "net/echonet/transport/unicast_server.go:handleUnicastUDPRequestMessage", "net/echonet/transport/multicast_server.go:handleMulticastRequestMessage"]}
{"id": "C170", "title": "Devices added by several goroutines", "statement": "When several goroutines have added devices to a node and all calls have returned, the node has every device once and its node profile describes them.", "quantifier": "all nodes, devices, numbers of goroutines and schedules", "why_tests_cant": "ranges over all schedules of any number of goroutines", "anchors": ["net/echonet/local_node.go:AddDevice", "net/echonet/base_node.go:AddDevice", "net/echonet/local_node.go:updateNodeProfile", "net/echonet/node_profile.go:SetInstanceList"]}
{"id": "C171", "title": "A device is added at one moment", "statement": "A request that is handled while a device is being added finds the node without the device, or with the device complete and described by the node profile.", "quantifier": "all nodes, devices and moments of the call", "why_tests_cant": "ranges over all moments at which a request can come", "anchors": ["net/echonet/local_node.go:AddDevice", "net/echonet/base_node.go:AddDevice", "net/echonet/local_node.go:updateNodeProfile", "net/echonet/node_profile.go:SetInstanceList"]}
{"id": "C172", "title": "Start and Stop called by several goroutines", "statement": "When several goroutines have called Start and Stop and all calls have returned, the open sockets are those of the servers that are listed, so that a further Stop closes them all.", "quantifier": "all hosts, numbers of goroutines, calls and schedules", "why_tests_cant": "ranges over all schedules of any number of goroutines", "anchors": ["net/echonet/transport/unicast_manager.go:Start", "net/echonet/transport/unicast_manager.go:Stop", "net/echonet/transport/unicast_manager.go:StartWithInterfaceAndPort", "net/echonet/transport/unicast_server.go:Stop"]}
{"id": "C173", "title": "Sending while the node stops", "statement": "SendMessage and AnnounceMessage may be called by any number of goroutines, also while the node is stopped. A call that returns without an error has sent the message once, over TCP or from the port of one of the servers of the node. A call that returns an error has sent nothing. Every call returns.", "quantifier": "all sets of servers, messages, outcomes of the attempts to send, and schedules of any number of calls of SendMessage, AnnounceMessage and Stop", "why_tests_cant": "ranges over all schedules of any number of calls", "anchors": ["net/echonet/local_node_msssage.go:SendMessage", "net/echonet/local_node_msssage.go:AnnounceMessage", "net/echonet/transport/unicast_manager.go:SendMessage", "net/echonet/transport/unicast_manager.go:AnnounceMessage", "net/echonet/transport/udp_socket.go:SendBytes", "net/echonet/transport/message_manager.go:IsRunning"]}
{"id": "C174", "title": "Copies of a property come to agree", "statement": "A program on each of several nodes keeps a property equal: it writes the data it hears announced if its own property has other data. When properties have been written and all messages have arrived, all nodes have the same data, and no more messages are sent.", "quantifier": "all numbers of nodes, all data they have, all writes, and all orders in which messages arrive", "why_tests_cant": "ranges over all networks of such nodes and all orders of arrival", "anchors": ["net/echonet/local_node_message_handler.go:ProtocolMessageReceived", "net/echonet/property_map.go:SetPropertyData", "net/echonet/local_node_msssage.go:AnnounceProperty", "net/echonet/property.go:SetData"]}
{"id": "C175", "title": "Time a message takes over TCP", "statement": "With TCP, SendMessage returns within the connection timeout, and PostMessage within the connection timeout and the request timeout together, whatever the other side does.", "quantifier": "all timeouts, all interfaces, all times the calls of a connection take, and all their outcomes", "why_tests_cant": "ranges over all times that connecting, writing and reading can take on any number of interfaces", "anchors": ["net/echonet/transport/tcp_socket.go:dialAndWriteBytes", "net/echonet/transport/tcp_socket.go:PostMessage", "net/echonet/transport/unicast_manager.go:PostMessage", "net/echonet/transport/unicast_server.go:SendMessage", "net/echonet/local_node_msssage.go:PostMessage"]}
{"id": "C176", "title": "Callbacks that post", "statement": "A callback that handles a request may itself post requests before it returns. If no message is lost, every post of the program and of its callbacks returns its answer, and none runs into its timeout. Whatever is lost, repeated or late, an answer is one to the post that returns it, given by the node asked after its callbacks were through. A post leads to a bounded number of further steps of the network.", "quantifier": "all networks of nodes, all posts that programs and callbacks make, all interleavings, and all delays and repetitions of messages", "why_tests_cant": "ranges over all callbacks, all nestings of posts and all interleavings of any number of goroutines", "anchors": ["net/echonet/local_node_msssage.go:PostMessage", "net/echonet/local_node_message_handler.go:ProtocolMessageReceived", "net/echonet/transport/unicast_server.go:handleUnicastUDPConnection", "net/echonet/node_listener.go:OnMessage"]}
{"id": "C177", "title": "Listeners that search", "statement": "A controller listener may call SearchAllObjects each time a new node is found. In a network that does not change this ends: the listener searches at most once for every node, and then all messages are handled.", "quantifier": "all networks, all nodes known before, all searches made before, and all interleavings of the goroutines that handle the answers", "why_tests_cant": "ranges over all networks and all interleavings of an unbounded number of handlers; that the searching never ends shows in no finite run", "anchors": ["net/echonet/controller_message_listener.go:addNode", "net/echonet/controller.go:SearchAllObjects", "net/echonet/transport/unicast_server.go:handleUnicastUDPConnection", "net/echonet/transport/multicast_server.go:handleMulticastConnection"]}
{"id": "C178", "title": "Data races", "statement": "A program may call a node or a controller from any goroutine while it is running and messages arrive: no two goroutines use the same field without an order between them that the Go memory model guarantees, one of them writing it.", "quantifier": "all programs made of the calls of a local node and a controller, any number of goroutines and of messages handled, and all executions", "why_tests_cant": "a data race depends on the order of events in an execution; the race detector sees only the executions that happen, and the claim is about all of them", "anchors": ["net/echonet/local_node.go:NextTID", "net/echonet/local_node.go:SetListener", "net/echonet/local_node_msssage.go:PostMessage", "net/echonet/local_node_msssage.go:isResponseMessageWaiting", "net/echonet/local_node_message_handler.go:ProtocolMessageReceived", "net/echonet/controller_message_listener.go:addNode", "net/echonet/transport/multicast_manager.go:setUnicastManager", "net/echonet/transport/multicast_server.go:handleMulticastRequestMessage"]}
{"id": "C179", "title": "Size of the read buffer", "statement": "After the size of the read buffer of an open UDP socket was set to n, a message whose properties have data is received as it was sent exactly if it has at most n bytes, whatever was received before; the size is read back. A size below 0 is a panic.", "quantifier": "all sockets, sizes, messages whose properties have data, and histories of datagrams", "why_tests_cant": "ranges over all messages, sizes and histories", "anchors": ["net/echonet/transport/udp_socket.go:SetReadBufferSize", "net/echonet/transport/udp_socket.go:ReadBufferSize", "net/echonet/transport/udp_socket.go:ReadMessage"]}
{"id": "C180", "title": "Families of interfaces", "statement": "IsIPv4Interface is true exactly for the interfaces with an IPv4 address, and IsIPv6Interface exactly for those with an IPv6 address.", "quantifier": "all interfaces with all lists of addresses, as the system prints them, or an error", "why_tests_cant": "ranges over all lists of addresses; the addresses of the machine that runs a test are a few of them", "anchors": ["net/echonet/transport/interface.go:IsIPv4Interface", "net/echonet/transport/interface.go:IsIPv6Interface", "net/echonet/transport/interface.go:GetInterfaceAddresses"]}
{"id": "C181", "title": "Sending while the node is restarted", "statement": "SendMessage and AnnounceMessage may be called by any number of goroutines, also while others start and stop the node. No call panics, and every call returns. A call that returns without an error has sent the message once, from the port of one of the servers of the node. A call that returns an error has sent nothing. Between restarts, a call that the system lets send returns without an error.", "quantifier": "all hosts, messages, outcomes of the attempts to send, and schedules of any number of calls of SendMessage, AnnounceMessage, Start and Stop", "why_tests_cant": "ranges over all interleavings of the accesses of the calls; a test sees a few of them", "anchors": ["net/echonet/transport/unicast_manager.go:Start", "net/echonet/transport/unicast_manager.go:Stop", "net/echonet/transport/unicast_manager.go:SendMessage", "net/echonet/transport/unicast_manager.go:AnnounceMessage", "net/echonet/transport/udp_socket.go:SendBytes", "net/echonet/local_node_msssage.go:SendMessage"]}

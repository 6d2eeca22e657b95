# Formal model of uecho-go in Lean 4

This directory holds a Lean 4 model of the Go package `net/echonet` (ECHONET Lite
protocol, objects, nodes, controller, transport logic, command helpers) and
kernel-checked proofs of the properties listed in `properties.jsonl`.

## Layout

* `lean/Verif/Go.lean` – the Go semantics used: bytes, panics, maps.
* `lean/Verif/Model/*.lean` – the model, one definition per Go function, each with
  a comment `file:lines` of the code it models.
* `lean/Verif/Spec/*.lean` – small specifications (wire layout, ESV tables,
  property bitmap, ...) written without the model's functions.
* `lean/Verif/Lemmas/*.lean` – helper lemmas.
* `lean/Verif/Props/*.lean` – the property theorems, with an `example` beside each
  showing a concrete case meeting the hypotheses.
* `MANIFEST.json` – property → theorems.
* `seeded/LOG.jsonl` – wrong-program experiments.

## Modelling decisions

* `byte` is `BitVec 8`, `uint` and `int` lengths are 64 bits wide (the integer codec is
  generic in the width). Wrapping and truncation are those of Go.
* Slices are `List`s; the fixed-size header slices are lists whose length is
  proved invariant. Aliasing is not visible in this representation; a separate
  heap model (C17) covers it. Pointers to properties and objects are cells of a memory in
  `Model/Pointers`; C105 proves when the value model of objects describes them.
* A Go panic (index out of range, close of closed channel, ...) is an explicit
  outcome, so that "never panics" is a theorem and not a by-product of totality.
* A Go `map` is an association list; wherever the code iterates over a map the
  result is proved independent of the order.
* Functions that change their receiver return the new value.
* `SetData` on a property announces synchronously; the model returns the
  announcements in order, and the node turns them into multicast messages.
* User callbacks (listeners, handlers) are arbitrary functions on the node state.
* Operating system calls (bind, send, dial, interface list) are parameters: the
  theorems quantify over every outcome.
* Goroutines are explicit step relations; the theorems quantify over every
  schedule.
* When the code violates a property, the negation is proved with a concrete
  witness (`..._refuted`) and the part that does hold is proved as `..._partial`.

## Plan per property

| id | model | how it is proved |
|----|-------|------------------|
| C01 | Model/Encoding | induction on the buffer length, generic width |
| C02 | Model/Message, Model/Parser | parser run on `pre ++ encode ps ++ post`, induction on the property list |
| C03 | Model/Message, Spec/Wire | buffer-filling loop = concatenation, induction |
| C04 | Model/Parser | explicit panic outcome, induction on the property loop |
| C05 | Model/Parser | consequences of C02/C03 |
| C06 | Model/Parser | refuted by witness; partial: cuts inside the fixed part |
| C07 | Model/Parser | loop invariant |
| C08 | Model/Reader | invariant "consumed bytes = encoded prefix" over an arbitrary reader |
| C09 | Model/Reader | refuted by witness; partial: segments aligned with fields |
| C10 | Model/Message | bit-vector arithmetic |
| C11 | Model/Message | induction over API histories |
| C12 | Model/Message | from C02 |
| C13 | Model/Message, Model/Object | arithmetic from C01 |
| C14 | Model/Esv, Spec/Esv | exhaustive over 256 bytes, kernel decided |
| C15 | Model/Message | case analysis |
| C16 | Model/Message | refuted by witness; partial: header fields |
| C17 | Model/Heap | separation invariant over heap histories |
| C18 | Model/Property | from C01 |
| C19 | Model/Property | case analysis |
| C20 | Model/Property, Spec/Esv | case analysis |
| C21, C22 | Model/Property, Spec/PropertyMap | bit lemmas; C22 refuted, exact characterisation proved |
| C23 | Model/Object | invariant over histories |
| C24 | Model/Object | refinement to a finite function |
| C25, C26 | Model/Database (generated table), Model/Object | fold lemmas, kernel-decided table facts |
| C27, C28 | Model/Object | case analysis; C28 refuted |
| C29 | Model/Node | modular arithmetic |
| C30, C31 | Model/Node | invariant over histories |
| C32–C37, C39–C42 | Model/Handler | decision logic, folds over the property list, histories of callbacks |
| C38, C43 | Model/Handler | refuted (endless exchange of two nodes; invalid messages); partial: accepted messages |
| C44–C49 | Model/Controller | invariants over histories; step relation for C45; end-to-end composition for C48 |
| C50–C54, C69 | Model/Post | step relation of posters, receivers and timers; invariants over every schedule; witnesses for the races |
| C55 | Model/Tid | step relation of overlapping calls; witness, and an invariant for calls that do not overlap |
| C56, C57 | Model/Receive | loop over datagrams |
| C58–C62 | Model/Transport | state machine with oracle for OS calls |
| C63, C64 | Model/Config, Model/Interface | case analysis, filter lemmas |
| C65, C66 | Model/Cmd | induction over strings and tables |
| C67 | Model/Database | refuted by two entries of the shipped table; partial: unconditional rules, decided over the whole table |
| C68 | Model/Controller | refuted for every object code but the node profile; partial: the rest of the request |
| C70 | Model/Receive | composition of decoding, handling and sending |
| C71, C72 | Model/Transport | loops over servers with an arbitrary send outcome; refuted, partial for one interface |
| C73 | Model/Transport | from the start specification used for C58; refuted when the announcement fails |
| C74 | Model/Cmd | string codecs and message construction; refuted by truncation |
| C75, C76 | Model/Cmd | tables as lists of rows; CSV by splitting back; refuted by ragged tables and commas |
| C77 | Model/Cmd | decision over the accepted names, with the case mapping beyond ASCII as a parameter |
| C78 | Model/Scan | induction over nodes, objects and properties with arbitrary answers to the posts |
| C79–C81 | Model/Tcp, Spec/Tcp | simulation of `bufio.Reader` by a reader of 4096 byte blocks, then C09; refuted by cuts and by a silent peer |
| C82 | Model/Tcp | loop over accept events |
| C83, C84 | Model/Tcp | case analysis over the outcomes of the calls, induction over servers; C84 refuted by a late response |
| C85, C86 | Model/NodePost | composition of the TCP part and the following sending; refuted by any frame on the connection, and by a silent peer |
| C87 | Model/Address | soundness and completeness of the IPv4 parser, splitting of joined strings; refuted for every host that is no address |
| C88 | Model/Request | induction over the options; the frame by C03 |
| C89, C90 | Model/Request, Receive, Handler, Post | composition of C88, C70, C05 and the effects of the callbacks; the machine of Model/Post for what a post returns |
| C91 | Model/DataRace | invariant over all schedules of the loads, stores and copies; refuted by schedules given for all values |
| C92 | Model/SuperObject, Node | C25 with the table of the super class; refuted for every device |
| C93 | Model/Handler, Node | C32 with the data of a new device (C92); refuted for every device and write |
| C94 | Model/NodeEnds, Transport | C58 and C61; refuted by a host with two interfaces |
| C95 | Model/NodeEnds | stopping twice is stopping once (C58) |
| C96 | Model/NodeEnds, Handler | C42 with the sockets of the servers; refuted for all transports with two servers |
| C97 | Model/NodeEnds, Controller | every unicast server is on an address of a multicast server: invariant of the binding loops; refuted by a host, for every controller on it |
| C98 | Model/Controller, Node, Handler | composition of C70, C48 and C47; induction over the arriving messages with what holds of the list; refuted for every node with 85 devices |
| C99 | Model/Node, Controller | induction over the writes with C41 and C02, over the arriving messages with C46; refuted for every write of 256 bytes |
| C100 | Model/Tcp, NodePost, Request, Handler | the exchange of C89 and C90 with the TCP server (C80) and the post over TCP (C84) around it |
| C101 | Model/Serve, Handler | goroutines as machines; a goroutine alone refines `received` (`goes_received`); a schedule in which the second message runs first |
| C102 | Model/Serve, Handler | the same machines; a schedule with the second message between two properties of the first; invariant over all schedules that relates the goroutine to a run by itself on an alike node |
| C103 | Model/Search | the polling loop as a function of the clock; induction on the number of polls; composed with C98 for what is listed |
| C104 | Model/NodeOptions, Node | the fold over the options; adding a device, giving a code and giving a configuration commute on a node that does not run, so every list equals one canonical list |
| C105 | Model/Pointers, Spec/Pointers | ownership invariant of the memory (each property is in the map of the object it points to, under its code); every careful call simulates the method of the value model on one object and leaves the rest |
| C106 | Model/Pointers | refuted in general; maps after `AddProperty` from the simulation of C105 under the weaker condition that only codes are fixed |
| C107 | Model/MapRace | goroutines as lists of uses of a map, each with a begin and an end; explicit schedule for the refutation, suffix invariant for the rest |
| C108 | Model/Light on Model/Handler | effects of the handler on one message by induction over its properties; history by induction over events; answers from C35, C41 |
| C109 | Model/Light | the line printed, computed for every state |
| C110 | Model/PostTool | reading hexadecimal texts as in C65; inversion of the sequence of checks; the light of C108 as receiver |
| C111 | Model/Shutdown | invariant of every schedule with any number of calls of `Stop`: what each call has still to do accounts for what is still open; refutation by a schedule built for every node and message |
| C112 | Model/Shutdown | invariant on calls that do not overlap; a measure that decreases with each step of a call; the crash for every node with a unicast server |
| C115 | Model/Message, Model/Receive, Model/Tcp | invariant of the receive loop; the message given to the listener is the one received |
| C116 | Model/Node | the node profile's lists against the codes after any call on a device; refutation for every ordinary history and every call that changes a code |
| C117 | Model/Node, Model/Handler | which object a code addresses, for all nodes; independence of the answers from a hidden object |
| C118–C121, C123 | Model/Handler | the replies of a node to accepted and rejected messages, for all callbacks, against the sequences of the standard |
| C122 | Model/Parser, Spec/Wire | frames of the service as byte strings; decoding gives the same message for all lists to read |
| C124, C125 | Model/Serve | invariant over all schedules: each object has the shape it had at first; handlers in flight hold only checked data |
| C126 | Model/Listing | a listing is any permutation of the entries of the map; entries by induction over the table |
| C127 | Model/Addresses, Model/Transport | the list as a function of the multicast servers, over all histories of the transport |
| C128 | Model/PostTime | the machine of Model/Post with a clock; potential: time left of the post that waits plus a timeout for each that has not begun to wait |
| C129 | Model/Transport | invariant of the sockets of servers over all histories; every attempt to send is made by a server of the node |
| C130 | Model/Node, Model/Handler | case analysis of the handler for INFC; counterexamples for all properties the receiver lacks |
| C131 | Model/Transport | invariant of the multicast sockets over all histories; induction over interfaces and addresses |
| C132 | Model/Shutdown, Model/Receive | invariant over all schedules: arrivals = taken ++ queue; potential argument for progress |
| C133 | Model/SuperObject | the write lemma of objects applied to the two setters; counterexamples for all values |
| C134 | Model/Object | the invariant that an object has three code bytes; arithmetic on them |
| C135 | Model/Property, Model/Message | case analysis |
| C136 | Model/Controller | induction over Nodes(); invariant of the ports over all histories |
| C137 | Model/Text, Model/Scan | hexadecimal digits are injective; composed with the parsing of the command line |
| C138 | Model/Text, Model/Address | brackets and the last colon separate host and port; decimal digits are injective |
| C139 | Model/Print | values of hexadecimal digits; the printed number is always greater than the code |
| C140 | Model/Print | induction over nodes, objects and properties, with the requests made before |
| C141 | Model/Source | cases of the post; agreement with the post of Model/NodePost |
| C142 | Model/Source, Model/Address | text of the peer read back by the parser of addresses |
| C143 | Model/Class | induction over the options |
| C144 | Model/Pointers | the database up to stored data is an invariant of the memory |
| C145 | Model/Socket | induction over the calls, cases of the answers |
| C146 | Model/Parent | induction over the calls |
| C147 | Model/Tools | cases of where a run can end |
| C148 | Model/Post | induction over the posts and the messages of each, from the agreement of the models of posts |
| C149 | Model/Transport | the loops over addresses, interfaces, retries and ports, each by induction, then the start by cases |
| C150 | Spec/Object (`bareAdd`, `bareSetCode`, `bareSetCodes`) | the number at the front of a map tells two lists that differ in one code apart; agreement from C24 and the codes |
| C151 | Model/Callbacks | simulation of Model/Handler for callbacks that leave the message alone; calls counted by induction over the properties |
| C152 | Model/Callbacks | replay of the calls made: each callback is set in the state the earlier calls lead to |
| C153 | Model/ListMem | invariant: the arrays of the library are apart, lists handed out end below what will be added; lists of the library as values |
| C154 | Model/ListRace | invariants over all schedules: what slices in use show, which slices can still write an array, which handler wrote a node |
| C155 | Model/CtrlLive | exact calls and lists by cases on the message, invariant over histories; simulation of Model/Controller for listeners that only use the node |
| C156 | Model/Retry | the loop with its 64-bit counter as a step function: simulation of Model/Transport by induction over the retries left; refuted for the largest number |
| C157 | Model/Settings | configurations as shared objects: induction over the calls after the last SetConfig and the last start; refuted for every history |
| C158 | Model/Network | two nodes and a network that keeps all datagrams: origin of each reply and request by induction over the history, distinct identifiers by C29; refuted after 65536 identifiers |
| C159 | Model/Network | the same histories; order by the step that ends a post; refuted by late and by repeated datagrams |
| C160 | Model/Serve | the same schedules; each goroutine that answers carries the moments it read at, by induction over the schedule; refuted by two writes of the program between two reads |
| C161 | Model/LiveNetwork | Model/Network and Model/Serve put together; where each request, goroutine and reply comes from, by induction over the history, then the moments of C160; the refutation carries the schedule of C160 over the network |
| C162 | Model/Serve | what the goroutine of one message has called and changed so far, as an invariant of its control points over every schedule |
| C163 | Model/LiveNetwork | the request that was answered from C161, its callbacks and their moments from C162; the refutation puts a schedule with a write of the program between the two properties on the network |
| C164 | Model/Program | objects are cells named by pointers; the state of a node whose objects are its own and the state of a node that owns them, by induction over the calls; the refutation follows one pointer held by two nodes |
| C165 | Model/Program | one call after any history |
| C166 | Model/Serve, so messages that no post takes (C69) | the number of steps left goes down with every step of the goroutine and is not touched by any other; for callbacks without a bound a lexicographic order |
| C167 | Model/LiveNetwork | invariant of the goroutine from the arrival of the request: no error so far, the object found, the steps left; then the reply has the identifier of the request and another service, so it is taken |
| C168 | Model/AnnounceRace | a machine with a control point per goroutine; refuted by one schedule after any history; invariants over all schedules: what the goroutine has seen in its call, the announcements to come, and those that were made from older data |
| C169 | Model/Mesh | any number of nodes and the datagrams between them; a measure that falls with each arrival: the datagrams that ask, then all datagrams; refuted by an endless execution of any two nodes in service |
| C170 | Model/AddRace, ListMem | a machine with a control point per goroutine over slices that share arrays; refuted by two schedules of any two calls; invariants over all schedules: the slices in use, the devices to come, the values read; calls that do not overlap refine `addDevice` |
| C171 | Model/AddRace | the state after each step of a call, in closed form |
| C172 | Model/StartRace, ListMem | a machine with a control point per goroutine; refuted by schedules of two calls and an invariant over everything that comes later; an invariant per control point when the calls come one by one |
| C173 | Model/SendRace, Shutdown | calls of SendMessage and AnnounceMessage as a machine that reads the state of Model/Shutdown; an invariant on what each call has sent; refuted by a schedule with one Stop, for every node and message; the results about Stop carry over, as the calls leave the node as it is |
| C174 | Model/Mesh | callbacks that write announced data that differs; each message that arrives lowers the number of messages on their way plus the number of nodes times that of the nodes with other data; refuted by two writes whose announcements cross, for all nodes and data |
| C175 | Model/TcpTime | the times of the calls made for each connection, added up along the attempts of Model/Tcp and Model/Transport; bound by induction on the servers; refuted by connecting without a timeout and by silent peers |
| C176 | Model/Nested | goroutines that hold the mutex of their node while they wait; invariant on heights of nodes, progress by induction on them, and a measure that every step lowers; refuted by goroutines that wait for each other, over any number of nodes; chains of posts that end are answered, by the same theorem for the requests that are made; a finite network of callbacks with at most one post each has only these two cases, as nodes repeat |
| C177 | Model/SearchStorm | the handlers of C45, with new ones for the answers to each search; invariant while handlers do not overlap, and a measure of the steps; refuted by a cycle of three steps that keeps the list at one node and searches each time |
| C178 | Spec/GoMemory, Model/Accesses | each call as the list of the fields it reads and writes, with go statements, the mutex and the channel; happens-before as in the Go memory model; a handler takes nothing from the program after its loop was started and gives nothing back, so conflicting uses are not ordered; with one goroutine, or with the mutex, they are |
| C179 | Model/ReadBuffer | the socket of Model/Receive with the size set; a message cut off is rejected or read with other properties |
| C180 | Model/InterfaceFamily | the two tests on the addresses of Model/Interface |
| C181 | Model/RestartSend, Spec/RestartSend | sends step by step, over the starts and stops of Model/StartRace; invariants over all schedules |
| C113, C114 | Model/Shutdown | invariant of every schedule without `Stop`: sockets stay open, links are set once `Start` has returned |

## Where the code disagrees with a property

Each of these is a theorem `..._refuted...` about the model; the MANIFEST note of the
property says what remains provable.

* Decoding accepts truncated frames (C06), and decoding from a stream fails when a `Read`
  ends inside a field (C09), which `bytes.Reader` and TCP both do.
* `NewImpossibleMessageWithMessage` doubles the properties and blanks their codes (C16).
* Property maps of 16 and more codes lose the codes from 0xC0 on (C22).
* `StandardVersion` never reads what `SetStandardVersion` stored (C28).
* Undefined services, and requests between objects that do not exist, are answered, so two
  nodes can go on for ever (C38). The node listener does not see invalid messages (C43).
* Two messages handled at the same time can list a node twice or lose one (C45). Nodes
  with 85 or more devices are never discovered (C48). A known node is never refreshed (C49).
  A search always asks for the node profile (C68).
* Posting: stale and foreign responses are accepted (C50, C51), a duplicate or late response
  crashes the process (C52) or blocks a handler for ever (C69), cancelling the context is
  not noticed (C54), concurrent calls share transaction identifiers (C55).
* Reception: one malformed or empty datagram ends the receive loop (C56); messages of more
  than 1024 bytes are cut (C57).
* Start: not every address is bound (C59), a failed start leaves sockets open (C60), ports
  drift with automatic binding (C61), a failed announcement leaves the node running (C73).
* Sending: announcements go out on one interface only (C71), replies through the first one
  (C72).
* TCP: a message cut inside a field is lost (C79), a silent peer is waited for without end
  (C81), one failed accept ends the service (C82), a late response leads to the request
  being sent again on every interface (C84) and then over TCP once more instead of UDP
  (C86); the response on a connection is not compared with the request (C85).
* Strings that are no address, and link-local addresses with a zone, are accepted and give an
  address without IP (C87).
* A response made during `SetData` can carry zeros, and two `SetData` calls can leave a
  mixture for good (C91).
* New devices hold none of the documented defaults (C92), and refuse every write with data until
  the application stores something of the same length (C93).
* With automatic port binding `Address()` and `Port()` can name no open socket (C94), and a
  controller can list itself (C97). A node handles its own announcement when it did not go out
  through the first server (C96).
* Nodes with 85 devices stay unlisted in any network (C98), and notifications of 256 bytes or more
  are cut (C99).
* Messages can overtake each other, since each is handled in a goroutine of its own (C101), and two
  writes of several properties can be mixed (C102).
* A property added to two objects is shared by them (C105), and a property changed after it was
  added leaves the object with a wrong key, stale maps or an announcement of data it does not hold (C106).
* Adding a property to a device of a running node can end the process: the map of properties has
  no lock (C107).
* The example light prints the new state as the previous one, since it reads the property after writing
  it, and the service code where the documentation has the property code (C109).
* `uechopost` takes everything after the property code as data. The documented arguments contain the size
  of the data, which is sent as its first byte; arguments without data are refused (C110).
* Once `Stop` has returned, a message read before is still handled, and a connection accepted before is still
  served (C111). Two calls of `Stop` at the same time can end the process (C112). A reply sent after `Stop`
  comes from another port (C113).
* A request to the multicast group that arrives while the node starts can stay unanswered (C114).
* Changing the code of a device after it was added leaves the old code in the node profile (C116).
* `AddDevice` takes two devices with the same code; the second can not be reached (C117).
* A node answers messages for objects it does not have (C118), processes nothing of a request it can process in
  part (C119), puts data into responses to writes (C120), gives out properties that may not be read on a request
  for a notification (C121), does not see what a `SetGet` request wants to read (C122), and never refuses a request
  for a notification for an object it has (C123). The text of the standard is not in the repository; these
  properties state its basic sequences (part 2, section 4.2), which `doc/device_inside.md` lists as supported.
* `Addresses` lists addresses no unicast socket is bound to, and addresses whose socket has been closed (C127).
* Posts wait for each other without a limit: `k` posts called at once may take `k` request timeouts (C128).
* With automatic port binding on several interfaces, `Port()` says one port and messages leave from another (C129).
* INFC is answered with the receiver's own data, and without the properties it does not have (C130).
* One malformed datagram ends the handling of all later ones on that socket, in every schedule (C132, see C56).
* SetVersion drops the minor version and leaves one byte; SetID leaves out the first byte of the identification number (C133).
* With automatic port binding LookupNode finds only the first of several nodes of one host (C136).
* uechosearch, uechobench and uechopost print object codes and services as the hexadecimal codes of the characters of their digits (C139).
* After a timeout PostMessage returns a message that is not nil and panics when it is read (C141).
* The zone of an IPv6 peer is lost over UDP, and its address is lost over TCP (C142).
* WithClassBytes crashes when fewer than two bytes are given, and the bytes a class returns are the ones it keeps (C143).
* LookupObject of the standard database returns the entry itself: attributes and class names changed in it reach all devices made later (C144).
* A socket that was closed still reports that it is bound (C145).
* A device that was added to two nodes is announced only by the last one (C146).
* `uechoctl set` succeeds whatever the device makes of the value: it sends a request that asks for no answer (C147).
* The object given to request handlers is the inner object of the device: properties added to it are missing from the property maps, and a code set on it brings no standard properties (C150).
* Callbacks get the message itself and not a copy: what they do to it changes the reply (C151).
* Devices, Profiles, Nodes and the Properties of a received message return the list of the library itself, with room for what is added next: appending to it can replace devices of a node (C153).
* A list of nodes can change after Nodes returned it (C154).
* With 2^64-1 retries `Start` never ends when the port is taken (C156).
* A configuration changed after it was given to a node is shown by the node and not used by its transport (C157).
* A late answer to a post given up is taken for the answer to the post made 65536 identifiers later (C158).
* A request that arrives late, or twice, is carried out (again) and undoes later confirmed writes (C159).
* A reply that lists several properties mixes data of different moments if the object changes while it is put together (C160).
* The same over the network: a read mixes data of different moments if the object changes while the node asked puts the reply together (C161).
* A write of several properties can be confirmed although the object never held all of them, because another write came in between (C163).
* A device added to two nodes takes the manufacturer code of whichever was set last (C164), and a device added twice is counted twice (C165).
* If two goroutines write an announced property, the announcements may come in the other order, so that the last one tells data the property no longer holds (C168).
* Data is announced whenever it is written, also if the property had this data. Two nodes whose listeners write what they hear of announce the same data to each other for ever (C169).
* `AddDevice` takes no lock. Two goroutines that add devices may lose one of them, or leave a node profile that describes neither state (C170). A request handled meanwhile sees a device without manufacturer code that the node profile does not list (C171).
* `Start` and `Stop` take no lock. When they overlap, a server may run on that the node does not list: no later `Stop` closes it, and with a fixed port no later `Start` succeeds (C172).
* A `SendMessage` or `AnnounceMessage` that overlaps a `Stop` may return without an error although its message left from a port no one listens at (C173).
* Two nodes whose programs copy each other's announced data swap it for ever if both are written at the same time, or one is written twice in a row (C174).
* Connections are made without a timeout, so that sending and posting with TCP have no time limit; a silent peer delays a post by the connection timeout for each interface (C175).
* A callback that asks the node which asked it for something that this node has to post for itself waits until a post times out; callbacks that ask each other without end keep the network busy for ever after a single post (C176).
* A listener that searches for each node found can search without end, because handlers overwrite each other's list of nodes (C177).
* Start, Stop, a post that is answered, two sends, and two messages to a controller are data races (C178).
* `IsIPv6Interface` is always false (C180).
* The same can happen when the node is restarted meanwhile (C181).
* Three settings are never taken over by `SetConfig` (C63).
* Tools: long and odd hex numerals (C65), codes out of range (C74), blank cells (C66),
  ragged tables (C75), commas in CSV (C76), node profiles listed twice (C78).
* Standard database: conditional requirements are treated as not applicable (C67).

Also visible in the model, not separate properties: `SetCode` on a device already added does
not refresh the node profile (C30 excludes it), `Data()` hands out the stored slice
(`C17_data_handed_out`), and a negative index to `Property(n)` panics (`C11_property`).

## Trusted base

* Lean 4.33.0's kernel. Axioms: every theorem of the MANIFEST depends on at most `propext`,
  `Classical.choice` and `Quot.sound`. None are added; there is no `sorry`, `native_decide`
  or `bv_decide`. Facts about the whole shipped table are decided by the kernel
  (`decide +kernel`).
* The faithfulness of the model to the Go text. Each definition cites its lines, and states
  its simplifications. The tables `DatabaseMra` and `DatabaseManufacturers` are generated
  from /repo by `tools/gen_db.py`.
* Go semantics: 64 bit `uint`/`int`, checked indexing and slicing, wrapping conversions, maps
  as unordered collections, `append` and slicing as in Model/Heap (where a slice made by the
  library has its length as capacity).
* The standard library: `io.Reader` contract, `hex.DecodeString`, `strings.Split`,
  `strings.TrimSpace`, `fmt` verbs `%X %d %s`, `encoding/json` of string maps, as cited where
  they are modelled. `unicode.ToLower` beyond ASCII and `unicode.IsSpace` are parameters,
  as is the text form of IPv6 addresses (with the laws `V6Text`).
* The network delivers a datagram unaltered, any number of times or never, and makes up none
  (Model/Network).

### Modelled

Packages `encoding`, `protocol`, `transport` (message_manager, unicast and multicast
managers and servers, sockets down to the system calls, configuration, interface selection),
`echonet` (properties, objects, devices, profiles, database, local node, message handling,
posting, controller, remote nodes, configuration), and `cmd` (hex arguments, tables, formats,
requests, scan). Goroutines are modelled for: posting and its handlers (Model/Post), adding
nodes (Model/ControllerRace), drawing identifiers (Model/Tid), the receive loop
(Model/Receive), the data of a property (Model/DataRace), its announcements (Model/AnnounceRace), devices being added (Model/AddRace), servers being started and stopped (Model/StartRace), calls that send while the node stops (Model/SendRace), messages handled at the same time
(Model/Serve), the map of properties (Model/MapRace), the sockets of a running node and `Stop`
(Model/Shutdown). Pointers to objects and properties are in Model/Pointers, aliasing of byte slices in
Model/Heap, of lists of devices, nodes and properties in Model/ListMem and Model/ListRace. Of the examples, `uecholight` (Model/Light), the arguments of `uechopost` (Model/PostTool) and
what `uechosearch`, `uechobench` and `uechopost` print (Model/Print) are modelled.

Any number of nodes whose programs do nothing of their own are in Model/Mesh. Two nodes and the network between them are in Model/Network (the node asked handles one message at a
time) and Model/LiveNetwork (it handles several at once).

### How the models fit together

Some code is modelled more than once: as a function, and as steps that can be interleaved. These theorems
say that the models agree where both apply.

| models | theorem |
|---|---|
| Model/Post and `isResponseMessage`, `sendMessage` of Model/Handler and Model/Node | `handler_agrees`, `post_agrees` |
| Model/Serve and `received` of Model/Handler | `C101_partial` |
| Model/LiveNetwork and Model/Serve | `live_served` |
| Model/Program and Model/Node | `alone_run`, `C164_alone_partial` |
| Model/AnnounceRace and Model/Node | `alone_is_write` |
| Model/AddRace and Model/Node | `C170_apart_partial` |
| Model/Tid and `nextTID` of Model/Node | `call_alone` |
| Model/ControllerRace, Model/ListRace and `addNode` of Model/Controller | `C45_uninterrupted_partial`, `C154_uninterrupted_partial` |
| Model/Shutdown and Model/Receive | `C132_same` |
| Model/Callbacks and Model/Handler | `C151_alone_partial` |
| Model/CtrlLive and Model/Controller | `C155_same` |
| Model/Source and Model/NodePost | `C141_value_partial` |
| Model/Pointers and Model/Object | `C105_database`, `C105_apart_partial` |

### Not modelled

* System calls themselves: `bind`, `listen`, `join`, `dial`, `read`, `write` have arbitrary
  outcomes, chosen by an oracle indexed with the number of the call; `close` always releases
  the socket. Real time: a timeout may happen at any step.
* The Go memory model, except in Model/Accesses (C178): everywhere else races are interleavings of atomic steps (sequential consistency).
* Logging, signal handling, flag parsing (cobra), Windows files, tests.
* One `Device` added to two nodes or twice, except in Model/Parent and Model/Program (C146, C164, C165); callbacks that
  (un)register callbacks or modify the message while it is handled, except in Model/Callbacks (C151, C152).
  Controller callbacks that search are in Model/SearchStorm (C177), other acts on the controller in Model/CtrlLive (C155).

{
 "claims": [
  {
   "property": "C01",
   "status": "proved",
   "theorems": [
    "Verif.Props.C01_write_read",
    "Verif.Props.C01_write_read_fits",
    "Verif.Props.C01_read_write",
    "Verif.Props.C01_big_endian"
   ],
   "note": "for every value, buffer and uint width"
  },
  {
   "property": "C02",
   "status": "proved",
   "theorems": [
    "Verif.Props.C02_roundtrip",
    "Verif.Props.C02_injective"
   ],
   "note": "every message built through the API within the limits of the format (<=255 properties, <=255 bytes each); Built covers all constructors and setters"
  },
  {
   "property": "C03",
   "status": "proved",
   "theorems": [
    "Verif.Props.C03_layout",
    "Verif.Props.C03_frame"
   ],
   "note": "layout, size and absence of panics for every built message; beyond the limits PDC and OPC wrap modulo 256, as stated"
  },
  {
   "property": "C04",
   "status": "proved",
   "theorems": [
    "Verif.Props.C04_no_panic",
    "Verif.Props.C04_rejects"
   ],
   "note": ""
  },
  {
   "property": "C05",
   "status": "proved",
   "theorems": [
    "Verif.Props.C05_decode_encode",
    "Verif.Props.C05_canonical"
   ],
   "note": "every valid frame with any trailing bytes; canonical form for every accepted input"
  },
  {
   "property": "C06",
   "status": "partial",
   "theorems": [
    "Verif.Props.C06_refuted",
    "Verif.Props.C06_refuted_statement",
    "Verif.Props.C06_refuted_misread",
    "Verif.Props.C06_refuted_misread_any",
    "Verif.Props.C06_truncated_partial",
    "Verif.Props.C06_lenient",
    "Verif.Props.C06_complete_prefix_partial"
   ],
   "note": "refuted: every truncation that keeps the 12 byte fixed part is accepted (C06_refuted, C06_refuted_statement, C06_refuted_misread, in general C06_refuted_misread_any). Proved: shorter truncations are rejected, complete leading properties are right, and the exact result (C06_lenient). Missing: rejection, which the code does not do"
  },
  {
   "property": "C07",
   "status": "proved",
   "theorems": [
    "Verif.Props.C07_counts",
    "Verif.Props.C07_provenance"
   ],
   "note": ""
  },
  {
   "property": "C08",
   "status": "proved",
   "theorems": [
    "Verif.Props.C08_consumed",
    "Verif.Props.C08_no_panic",
    "Verif.Props.C08_logged"
   ],
   "note": "for every reader, modelled as an arbitrary state machine obeying the io.Reader contract"
  },
  {
   "property": "C09",
   "status": "partial",
   "theorems": [
    "Verif.Props.C09_segmentation_partial",
    "Verif.Props.C09_one_segment_partial",
    "Verif.Props.C09_refuted",
    "Verif.Props.C09_refuted_every_frame",
    "Verif.Props.C09_refuted_bytesReader",
    "Verif.Props.C09_refuted_bytesReader_any"
   ],
   "note": "refuted: a cut inside a field makes decoding fail (C09_refuted, for every frame C09_refuted_every_frame; C09_refuted_bytesReader for bytes.Reader, which fails exactly for frames whose last property has no data, C09_refuted_bytesReader_any). Proved: the exact condition under which segmentation does not matter"
  },
  {
   "property": "C10",
   "status": "proved",
   "theorems": [
    "Verif.Props.C10_tid",
    "Verif.Props.C10_tid_le",
    "Verif.Props.C10_frame"
   ],
   "note": ""
  },
  {
   "property": "C11",
   "status": "proved",
   "theorems": [
    "Verif.Props.C11_opc",
    "Verif.Props.C11_property",
    "Verif.Props.C11_setOPC_add",
    "Verif.Props.C11_hasProperty"
   ],
   "note": ""
  },
  {
   "property": "C12",
   "status": "proved",
   "theorems": [
    "Verif.Props.C12_equals",
    "Verif.Props.C12_copy",
    "Verif.Props.C12_equals_fields"
   ],
   "note": "copies: within the limits of the format"
  },
  {
   "property": "C13",
   "status": "proved",
   "theorems": [
    "Verif.Props.C13_eoj",
    "Verif.Props.C13_frame",
    "Verif.Props.C13_fromBytes",
    "Verif.Props.C13_bytes",
    "Verif.Props.C13_bytes'",
    "Verif.Props.C13_object"
   ],
   "note": "message objects and object codes"
  },
  {
   "property": "C14",
   "status": "proved",
   "theorems": [
    "Verif.Props.C14_valid",
    "Verif.Props.C14_predicates",
    "Verif.Props.C14_required",
    "Verif.Props.C14_errors"
   ],
   "note": "all 256 codes against a table from the ECHONET Lite specification"
  },
  {
   "property": "C15",
   "status": "proved",
   "theorems": [
    "Verif.Props.C15_response"
   ],
   "note": ""
  },
  {
   "property": "C16",
   "status": "partial",
   "theorems": [
    "Verif.Props.C16_header_partial",
    "Verif.Props.C16_refuted",
    "Verif.Props.C16_refuted_statement"
   ],
   "note": "refuted for every request: twice as many properties, all with code 0 (C16_refuted). Proved: TID, objects and ESV"
  },
  {
   "property": "C17",
   "status": "proved",
   "theorems": [
    "Verif.Props.C17_set_data",
    "Verif.Props.C17_copy",
    "Verif.Props.C17_decoded",
    "Verif.Props.C17_not_decoded",
    "Verif.Props.C17_received",
    "Verif.Props.C17_data_handed_out"
   ],
   "note": "slices and pointers are modelled on a heap; the history may do anything except set the property or message again or take the slice Data() returns, which is the property own slice (C17_data_handed_out)"
  },
  {
   "property": "C18",
   "status": "proved",
   "theorems": [
    "Verif.Props.C18_integer"
   ],
   "note": ""
  },
  {
   "property": "C19",
   "status": "proved",
   "theorems": [
    "Verif.Props.C19_typed",
    "Verif.Props.C19_typed_message"
   ],
   "note": ""
  },
  {
   "property": "C20",
   "status": "proved",
   "theorems": [
    "Verif.Props.C20_available",
    "Verif.Props.C20_only",
    "Verif.Props.C20_attributes"
   ],
   "note": "every attribute value and every code"
  },
  {
   "property": "C21",
   "status": "proved",
   "theorems": [
    "Verif.Props.C21_round_trip",
    "Verif.Props.C21_other_code",
    "Verif.Props.C21_no_panic"
   ],
   "note": ""
  },
  {
   "property": "C22",
   "status": "partial",
   "theorems": [
    "Verif.Props.C22_refuted_node_profile",
    "Verif.Props.C22_read_back_partial",
    "Verif.Props.C22_below_C0_partial",
    "Verif.Props.C22_refuted_write",
    "Verif.Props.C22_refuted_read",
    "Verif.Props.C22_refuted_example"
   ],
   "note": "refuted for every list of 16 to 255 codes with one from 0xC0 on, writing (C22_refuted_write) and reading (C22_refuted_read). Proved: the codes 0x80 to 0xBF are handled right. Missing: the codes from 0xC0 on, which the code drops"
  },
  {
   "property": "C23",
   "status": "proved",
   "theorems": [
    "Verif.Props.C23_maps_current",
    "Verif.Props.C23_standard"
   ],
   "note": "for every history of object operations that does not write the map codes directly; also for every object created from the standard database"
  },
  {
   "property": "C24",
   "status": "proved",
   "theorems": [
    "Verif.Props.C24_lookup",
    "Verif.Props.C24_last_added",
    "Verif.Props.C24_write",
    "Verif.Props.C24_count",
    "Verif.Props.C24_properties",
    "Verif.Props.C24_iteration_order",
    "Verif.Props.C24_super"
   ],
   "note": "plain objects and objects with standard properties"
  },
  {
   "property": "C25",
   "status": "proved",
   "theorems": [
    "Verif.Props.C25_succeeds",
    "Verif.Props.C25_device",
    "Verif.Props.C25_standard"
   ],
   "note": "for any database and for the shipped one"
  },
  {
   "property": "C26",
   "status": "proved",
   "theorems": [
    "Verif.Props.C26_lookup",
    "Verif.Props.C26_instance",
    "Verif.Props.C26_contents",
    "Verif.Props.C26_codes",
    "Verif.Props.C26_special",
    "Verif.Props.C26_manufacturers"
   ],
   "note": "the table is generated from /repo by tools/gen_db.py"
  },
  {
   "property": "C27",
   "status": "proved",
   "theorems": [
    "Verif.Props.C27_operating_status",
    "Verif.Props.C27_fault_status",
    "Verif.Props.C27_installation_location",
    "Verif.Props.C27_manufacturer_code",
    "Verif.Props.C27_absent",
    "Verif.Props.C27_standard_devices"
   ],
   "note": ""
  },
  {
   "property": "C28",
   "status": "partial",
   "theorems": [
    "Verif.Props.C28_refuted",
    "Verif.Props.C28_stored_partial",
    "Verif.Props.C28_reads"
   ],
   "note": "refuted for every object having the property and every version: StandardVersion wants five bytes but SetStandardVersion writes four (C28_refuted). Proved: what is stored"
  },
  {
   "property": "C29",
   "status": "proved",
   "theorems": [
    "Verif.Props.C29_sequence",
    "Verif.Props.C29_messages"
   ],
   "note": "the identifiers cycle through 0..65535 (TIDMin is 0)"
  },
  {
   "property": "C30",
   "status": "proved",
   "theorems": [
    "Verif.Props.C30_node_profile"
   ],
   "note": "for histories in which object codes of added objects are not changed afterwards (the code does not refresh the node profile then) and the five list properties are not written directly"
  },
  {
   "property": "C31",
   "status": "proved",
   "theorems": [
    "Verif.Props.C31_uniform"
   ],
   "note": "objects whose property 0x8A is not written directly"
  },
  {
   "property": "C32",
   "status": "proved",
   "theorems": [
    "Verif.Props.C32_acceptance"
   ],
   "note": ""
  },
  {
   "property": "C33",
   "status": "proved",
   "theorems": [
    "Verif.Props.C33_rejected"
   ],
   "note": "the contents of the error response beyond its header: see C16"
  },
  {
   "property": "C34",
   "status": "proved",
   "theorems": [
    "Verif.Props.C34_handlers"
   ],
   "note": ""
  },
  {
   "property": "C35",
   "status": "proved",
   "theorems": [
    "Verif.Props.C35_response"
   ],
   "note": ""
  },
  {
   "property": "C36",
   "status": "proved",
   "theorems": [
    "Verif.Props.C36_no_reply",
    "Verif.Props.C37_error"
   ],
   "note": "errors: C37_error"
  },
  {
   "property": "C37",
   "status": "proved",
   "theorems": [
    "Verif.Props.C37_error"
   ],
   "note": ""
  },
  {
   "property": "C38",
   "status": "partial",
   "theorems": [
    "Verif.Props.C38_refuted",
    "Verif.Props.C38_refuted_endless",
    "Verif.Props.C38_accepted_partial",
    "Verif.Props.C38_ends_partial",
    "Verif.Props.C38_refuted_request"
   ],
   "note": "refuted: undefined service codes between two nodes are answered for ever (C38_refuted_endless), and so is a request between objects neither has (C38_refuted_request). Proved: accepted messages, and exchanges started by a request of an object its node has"
  },
  {
   "property": "C39",
   "status": "proved",
   "theorems": [
    "Verif.Props.C39_only_callbacks",
    "Verif.Props.C39_unchanged"
   ],
   "note": ""
  },
  {
   "property": "C40",
   "status": "proved",
   "theorems": [
    "Verif.Props.C40_holds",
    "Verif.Props.C40_read_back"
   ],
   "note": "the value a write handler leaves in the property is what later reads return"
  },
  {
   "property": "C41",
   "status": "proved",
   "theorems": [
    "Verif.Props.C41_write",
    "Verif.Props.C41_only_notifications",
    "Verif.Props.C41_stopped",
    "Verif.Props.C41_by_hand"
   ],
   "note": ""
  },
  {
   "property": "C42",
   "status": "proved",
   "theorems": [
    "Verif.Props.C42_own_messages",
    "Verif.Props.C42_others"
   ],
   "note": ""
  },
  {
   "property": "C43",
   "status": "partial",
   "theorems": [
    "Verif.Props.C43_refuted",
    "Verif.Props.C43_valid_partial"
   ],
   "note": "refuted: the node listener does not get invalid messages, contrary to doc/device_inside.md:55 (C43_refuted). Proved: the valid ones"
  },
  {
   "property": "C44",
   "status": "proved",
   "theorems": [
    "Verif.Props.C44_unique"
   ],
   "note": ""
  },
  {
   "property": "C45",
   "status": "partial",
   "theorems": [
    "Verif.Props.C45_refuted_duplicate",
    "Verif.Props.C45_refuted_lost",
    "Verif.Props.C45_refuted_any_duplicate",
    "Verif.Props.C45_refuted_any_lost",
    "Verif.Props.C45_uninterrupted_partial",
    "Verif.Props.C45_distinct_partial"
   ],
   "note": "refuted: two messages of a new node handled at the same time give two entries, and a node found at the same time can be lost (C45_refuted_duplicate, C45_refuted_lost). Proved: additions that do not overlap, and messages of nodes already known"
  },
  {
   "property": "C46",
   "status": "proved",
   "theorems": [
    "Verif.Props.C46_reported",
    "Verif.Props.C46_passed",
    "Verif.Props.C46_only_received",
    "Verif.Props.C46_no_listener"
   ],
   "note": ""
  },
  {
   "property": "C47",
   "status": "proved",
   "theorems": [
    "Verif.Props.C47_unique",
    "Verif.Props.C47_decoded",
    "Verif.Props.C47_refused",
    "Verif.Props.C47_reasons",
    "Verif.Props.C47_no_panic"
   ],
   "note": ""
  },
  {
   "property": "C48",
   "status": "partial",
   "theorems": [
    "Verif.Props.C48_announced_partial",
    "Verif.Props.C48_refuted",
    "Verif.Props.C48_search_partial"
   ],
   "note": "refuted: a node with 85 or more devices is never found from its announcement (C48_refuted): the instance list does not fit the one byte length field. Proved: up to 84 devices, by announcement and by search"
  },
  {
   "property": "C49",
   "status": "partial",
   "theorems": [
    "Verif.Props.C49_refuted_never_changes",
    "Verif.Props.C49_refuted",
    "Verif.Props.C49_refuted_any",
    "Verif.Props.C49_after_clear_partial"
   ],
   "note": "refuted: no event but Start and Clear changes a known node (C49_refuted_never_changes, C49_refuted; whatever a listed node announces, C49_refuted_any). Proved: after Start or Clear the next announcement is shown"
  },
  {
   "property": "C50",
   "status": "partial",
   "theorems": [
    "Verif.Props.C50_match_partial",
    "Verif.Props.C50_refuted_early",
    "Verif.Props.C50_refuted_late",
    "Verif.Props.C50_refuted_tcp",
    "Verif.Props.C50_refuted_any_early",
    "Verif.Props.C50_refuted_any_late",
    "Verif.Props.C50_met_partial"
   ],
   "note": "refuted: a message that arrived before the request was sent, or after it timed out for an earlier one, can be returned (C50_refuted_early, C50_refuted_late; C50_refuted_any_early, C50_refuted_any_late: whatever happened before); TCP posts return whatever the connection delivers (C50_refuted_tcp). Proved: what is returned over UDP was accepted by the comparison with the request pending at that moment (C50_match_partial), under every schedule with that of some post under way (C50_met_partial)"
  },
  {
   "property": "C51",
   "status": "partial",
   "theorems": [
    "Verif.Props.C51_refuted",
    "Verif.Props.C51_arrived_partial",
    "Verif.Props.C51_refuted_any"
   ],
   "note": "refuted: any node can answer, and any message with the identifier counts (C51_refuted; C51_refuted_any: whenever a post waits). Proved: what is returned did arrive"
  },
  {
   "property": "C52",
   "status": "partial",
   "theorems": [
    "Verif.Props.C52_refuted_duplicate",
    "Verif.Props.C52_refuted_timeout",
    "Verif.Props.C52_calm_partial",
    "Verif.Props.C52_refuted_any_duplicate",
    "Verif.Props.C52_refuted_any_timeout"
   ],
   "note": "refuted: a duplicate response is sent on a closed channel, and a response meeting the timeout reads a request that is gone (C52_refuted_duplicate, C52_refuted_timeout; C52_refuted_any_duplicate, C52_refuted_any_timeout: whenever a post waits). Proved: runs in which no post ends while a handler is between the comparison and the delivery"
  },
  {
   "property": "C53",
   "status": "proved",
   "theorems": [
    "Verif.Props.C53_exclusive",
    "Verif.Props.C53_released",
    "Verif.Props.C53_ends"
   ],
   "note": ""
  },
  {
   "property": "C54",
   "status": "partial",
   "theorems": [
    "Verif.Props.C54_refuted",
    "Verif.Props.C54_timeout_partial",
    "Verif.Props.C54_refuted_any"
   ],
   "note": "refuted: a waiting post does not notice that its context is done, it ends only by a message or the timeout (C54_refuted, C54_refuted_any). Proved: every wait is ended by the timeout"
  },
  {
   "property": "C55",
   "status": "partial",
   "theorems": [
    "Verif.Props.C55_refuted",
    "Verif.Props.C55_refuted_range",
    "Verif.Props.C55_refuted_any",
    "Verif.Props.C55_separate_partial",
    "Verif.Props.C55_bound_partial"
   ],
   "note": "refuted: overlapping calls get the same identifier (C55_refuted) or one beyond 65535 (C55_refuted_range). Proved: calls that do not overlap, in any order; under every schedule a bound (C55_bound_partial)"
  },
  {
   "property": "C56",
   "status": "partial",
   "theorems": [
    "Verif.Props.C56_refuted",
    "Verif.Props.C56_refuted_empty",
    "Verif.Props.C56_socket_partial",
    "Verif.Props.C56_wellformed_partial"
   ],
   "note": "refuted: one malformed datagram ends the receive loop (C56_refuted), an empty one too (C56_refuted_empty). Proved: as long as every datagram is well formed, all are handled"
  },
  {
   "property": "C57",
   "status": "partial",
   "theorems": [
    "Verif.Props.C57_intact_partial",
    "Verif.Props.C57_buffer",
    "Verif.Props.C57_refuted"
   ],
   "note": "refuted: a message of more than 1024 bytes is cut off and not received as sent (C57_refuted). Proved: up to 1024 bytes"
  },
  {
   "property": "C58",
   "status": "proved",
   "theorems": [
    "Verif.Props.C58_running",
    "Verif.Props.C58_no_panic",
    "Verif.Props.C58_stop",
    "Verif.Props.C58_fresh"
   ],
   "note": ""
  },
  {
   "property": "C59",
   "status": "partial",
   "theorems": [
    "Verif.Props.C59_last_partial",
    "Verif.Props.C59_refuted",
    "Verif.Props.C59_refuted_any"
   ],
   "note": "refuted: addresses after a failed one, and interfaces without a readable address list, are skipped, and an error is forgotten when a later interface binds (C59_refuted; C59_refuted_any for every host on which the port is taken on some address and free on the last interface). Proved: the last interface with addresses is bound"
  },
  {
   "property": "C60",
   "status": "partial",
   "theorems": [
    "Verif.Props.C60_refuted_kept",
    "Verif.Props.C60_refuted_first",
    "Verif.Props.C60_refuted_leaked",
    "Verif.Props.C60_stop_partial",
    "Verif.Props.C60_single_partial",
    "Verif.Props.C60_refuted_any",
    "Verif.Props.C60_refuted_forever",
    "Verif.Props.C60_refuted_leak_any"
   ],
   "note": "refuted: the sockets of earlier interfaces, of earlier attempts and of a server whose TCP part fails stay open (C60_refuted_kept, C60_refuted_first, C60_refuted_leaked; C60_refuted_any and C60_refuted_leak_any for every host of the kind described there, C60_refuted_forever: through every later history). Proved: a following Stop closes all if none was leaked, and a single address without TCP leaves nothing bound"
  },
  {
   "property": "C61",
   "status": "partial",
   "theorems": [
    "Verif.Props.C61_refuted_any",
    "Verif.Props.C61_configured",
    "Verif.Props.C61_range",
    "Verif.Props.C61_port",
    "Verif.Props.C61_refuted_several",
    "Verif.Props.C61_refuted_drift"
   ],
   "note": "refuted: with automatic binding several ports may be in use at once (C61_refuted_several, C61_refuted_any), and the configured port is overwritten, so restarts leave the range (C61_refuted_drift). Proved: the configured port without it, the range from the port before the start, and what Port() reports"
  },
  {
   "property": "C62",
   "status": "proved",
   "theorems": [
    "Verif.Props.C62_order",
    "Verif.Props.C62_fails_iff",
    "Verif.Props.C62_started"
   ],
   "note": ""
  },
  {
   "property": "C63",
   "status": "partial",
   "theorems": [
    "Verif.Props.C63_exactly_partial",
    "Verif.Props.C63_copied_partial",
    "Verif.Props.C63_refuted",
    "Verif.Props.C63_refuted_never",
    "Verif.Props.C63_equals",
    "Verif.Props.C63_setters"
   ],
   "note": "refuted: the bind retries, their wait time and the request timeout of the transport are never taken over (C63_refuted, C63_refuted_never). Proved: exactly when the configurations are equal afterwards, and the three settings that are copied"
  },
  {
   "property": "C64",
   "status": "proved",
   "theorems": [
    "Verif.Props.C64_group",
    "Verif.Props.C64_addresses",
    "Verif.Props.C64_selected",
    "Verif.Props.C64_families"
   ],
   "note": ""
  },
  {
   "property": "C65",
   "status": "partial",
   "theorems": [
    "Verif.Props.C65_bytes",
    "Verif.Props.C65_number_partial",
    "Verif.Props.C65_refuted_long",
    "Verif.Props.C65_refuted_odd"
   ],
   "note": "refuted: a numeral of more than sixteen digits is accepted and gives a wrong number (C65_refuted_long), one with an odd number of digits is rejected (C65_refuted_odd). Proved: bytes exactly, numbers up to sixteen digits"
  },
  {
   "property": "C66",
   "status": "partial",
   "theorems": [
    "Verif.Props.C66_column",
    "Verif.Props.C66_partial",
    "Verif.Props.C66_refuted",
    "Verif.Props.C66_dropped"
   ],
   "note": "refuted: a blank cell below another one is read as a repetition (C66_refuted). Proved: columns without blank cells, and which rows are left out"
  },
  {
   "property": "C67",
   "status": "partial",
   "theorems": [
    "Verif.Props.C67_refuted",
    "Verif.Props.C67_unconditional_partial",
    "Verif.Props.C67_refuted_any"
   ],
   "note": "refuted by the television and illuminance sensor classes (C67_refuted): required_c and required_o are treated as not applicable; C67_refuted_any says that this holds for every conditional line of the table, and for no other. Proved: the unconditional rules"
  },
  {
   "property": "C68",
   "status": "partial",
   "theorems": [
    "Verif.Props.C68_refuted",
    "Verif.Props.C68_refuted_statement",
    "Verif.Props.C68_request_partial"
   ],
   "note": "refuted: the request is always addressed to the node profile 0x0EF001 (C68_refuted). Proved: everything else about the request"
  },
  {
   "property": "C69",
   "status": "partial",
   "theorems": [
    "Verif.Props.C69_refuted",
    "Verif.Props.C69_calm_partial",
    "Verif.Props.C69_refuted_any"
   ],
   "note": "refuted: a handler can wait for ever on the channel of a post that has ended (C69_refuted; C69_refuted_any: whenever a post waits). Proved: calm runs"
  },
  {
   "property": "C70",
   "status": "proved",
   "theorems": [
    "Verif.Props.C70_to_sender",
    "Verif.Props.C70_request",
    "Verif.Props.C70_answer",
    "Verif.Props.C70_refusal"
   ],
   "note": ""
  },
  {
   "property": "C71",
   "status": "partial",
   "theorems": [
    "Verif.Props.C71_refuted",
    "Verif.Props.C71_some_partial",
    "Verif.Props.C71_single_partial"
   ],
   "note": "refuted: only the first interface on which sending succeeds is used (C71_refuted). Proved: at least one is, and the only one when there is one"
  },
  {
   "property": "C72",
   "status": "partial",
   "theorems": [
    "Verif.Props.C72_refuted",
    "Verif.Props.C72_refuted_example",
    "Verif.Props.C72_single_partial"
   ],
   "note": "refuted: replies always go out through the first unicast socket (C72_refuted, C72_refuted_example). Proved: hosts with a single interface"
  },
  {
   "property": "C73",
   "status": "partial",
   "theorems": [
    "Verif.Props.C73_refuted",
    "Verif.Props.C73_partial"
   ],
   "note": "refuted: when the announcement fails Start reports an error and the node stays running (C73_refuted). Proved: failures of binding, and success"
  },
  {
   "property": "C74",
   "status": "partial",
   "theorems": [
    "Verif.Props.C74_get_partial",
    "Verif.Props.C74_set_partial",
    "Verif.Props.C74_rejects",
    "Verif.Props.C74_rejects_value",
    "Verif.Props.C74_refuted"
   ],
   "note": "refuted: codes that do not fit are cut to their lowest bytes and another object or property is addressed (C74_refuted). Proved: codes in range, and rejection of other arguments"
  },
  {
   "property": "C75",
   "status": "partial",
   "theorems": [
    "Verif.Props.C75_row",
    "Verif.Props.C75_json_partial",
    "Verif.Props.C75_refuted",
    "Verif.Props.C75_printed"
   ],
   "note": "refuted: with messages of different numbers of properties the JSON output panics (C75_refuted). Proved: the row, tables of messages with equally many properties, and printed data"
  },
  {
   "property": "C76",
   "status": "partial",
   "theorems": [
    "Verif.Props.C76_partial",
    "Verif.Props.C76_refuted",
    "Verif.Props.C76_refuted_names"
   ],
   "note": "refuted: cells are not quoted, a comma in one shifts the rest (C76_refuted), and manufacturer names have commas (C76_refuted_names). Proved: cells without comma and line end"
  },
  {
   "property": "C77",
   "status": "proved",
   "theorems": [
    "Verif.Props.C77_accepts",
    "Verif.Props.C77_string"
   ],
   "note": ""
  },
  {
   "property": "C78",
   "status": "partial",
   "theorems": [
    "Verif.Props.C78_objects",
    "Verif.Props.C78_properties",
    "Verif.Props.C78_json",
    "Verif.Props.C78_hidden",
    "Verif.Props.C78_refuted"
   ],
   "note": "refuted: the node profile of a node found by its instance list is listed twice (C78_refuted). Proved: one row for each entry of the lists of devices and profiles, its cells, the JSON output and hiding"
  },
  {
   "property": "C79",
   "status": "partial",
   "theorems": [
    "Verif.Props.C79_received_partial",
    "Verif.Props.C79_small_partial",
    "Verif.Props.C79_refuted_long",
    "Verif.Props.C79_refuted",
    "Verif.Props.C79_refuted_cut"
   ],
   "note": "refuted: a portion that ends inside one of the pieces in which a message is read loses the message (C79_refuted, C79_refuted_cut), and so does the end of a 4096 byte buffer (C79_refuted_long). Proved: every cut between pieces, and every message of up to 4096 bytes arriving at once"
  },
  {
   "property": "C80",
   "status": "proved",
   "theorems": [
    "Verif.Props.C80_answered",
    "Verif.Props.C80_total",
    "Verif.Props.C80_request"
   ],
   "note": ""
  },
  {
   "property": "C81",
   "status": "partial",
   "theorems": [
    "Verif.Props.C81_refuted_any",
    "Verif.Props.C81_ends_partial",
    "Verif.Props.C81_refuted"
   ],
   "note": "refuted: a peer that stays silent is waited for without end (C81_refuted); C81_refuted_any says after which prefixes of which frames. Proved: when the stream ends or a message has been read"
  },
  {
   "property": "C82",
   "status": "partial",
   "theorems": [
    "Verif.Props.C82_accepts_partial",
    "Verif.Props.C82_refuted"
   ],
   "note": "refuted: after one failed accept no connection is served any more (C82_refuted). Proved: sequences of connections without a failure"
  },
  {
   "property": "C83",
   "status": "proved",
   "theorems": [
    "Verif.Props.C83_send",
    "Verif.Props.C83_post",
    "Verif.Props.C83_manager"
   ],
   "note": ""
  },
  {
   "property": "C84",
   "status": "partial",
   "theorems": [
    "Verif.Props.C84_post_once_partial",
    "Verif.Props.C84_refuted_post",
    "Verif.Props.C84_once_partial",
    "Verif.Props.C84_refuted"
   ],
   "note": "refuted: a request whose response is late is written once for every interface (C84_refuted) and once more by PostMessage (C84_refuted_post). Proved: when the first connection gives a response"
  },
  {
   "property": "C85",
   "status": "partial",
   "theorems": [
    "Verif.Props.C85_connection_partial",
    "Verif.Props.C85_refuted",
    "Verif.Props.C85_refuted_statement"
   ],
   "note": "refuted: whatever frame comes on the connection is returned (C85_refuted, C85_refuted_statement). Proved: it was read from a connection on which this request was written to the address asked"
  },
  {
   "property": "C86",
   "status": "partial",
   "theorems": [
    "Verif.Props.C86_udp_partial",
    "Verif.Props.C86_refuted"
   ],
   "note": "refuted: when the other side accepts connections but does not answer, the second attempt goes over TCP too, on a connection closed at once (C86_refuted). Proved: when no connection can be made"
  },
  {
   "property": "C87",
   "status": "partial",
   "theorems": [
    "Verif.Props.C87_back_partial",
    "Verif.Props.C87_dotted",
    "Verif.Props.C87_refuted",
    "Verif.Props.C87_refuted_zone",
    "Verif.Props.C87_accepted"
   ],
   "note": "refuted: hosts that are no address, and addresses with a zone, are accepted without IP (C87_refuted, C87_refuted_zone). Proved: strings of addresses are read back, exactly which hosts are IPv4 addresses, and exactly which strings are accepted and with which port (C87_accepted)"
  },
  {
   "property": "C88",
   "status": "proved",
   "theorems": [
    "Verif.Props.C88_options",
    "Verif.Props.C88_wire",
    "Verif.Props.C88_properties"
   ],
   "note": ""
  },
  {
   "property": "C89",
   "status": "proved",
   "theorems": [
    "Verif.Props.C89_read",
    "Verif.Props.C89_returned"
   ],
   "note": ""
  },
  {
   "property": "C90",
   "status": "proved",
   "theorems": [
    "Verif.Props.C90_write_read"
   ],
   "note": ""
  },
  {
   "property": "C91",
   "status": "partial",
   "theorems": [
    "Verif.Props.C91_mixture_partial",
    "Verif.Props.C91_single_partial",
    "Verif.Props.C91_between_partial",
    "Verif.Props.C91_refuted_zeros",
    "Verif.Props.C91_refuted_mixed"
   ],
   "note": "refuted: a response made during SetData can carry zeros never stored (C91_refuted_zeros), and two SetData calls can leave a mixture for good (C91_refuted_mixed). Proved: lengths and bytes always come from the values or are blank, with one writer the bytes of one value only, and exactly the held data when no write is under way at the load"
  },
  {
   "property": "C92",
   "status": "partial",
   "theorems": [
    "Verif.Props.C92_mandatory_partial",
    "Verif.Props.C92_refuted",
    "Verif.Props.C92_manufacturer_partial",
    "Verif.Props.C92_refuted_manufacturer"
   ],
   "note": "refuted: for every device the five documented properties hold no data and their getters fail (C92_refuted), and the manufacturer code stored is FFFFFF, not FFFFF0 (C92_refuted_manufacturer). Proved: the mandatory properties exist in every device, and adding it to a node stores the code of the node and changes no other property"
  },
  {
   "property": "C93",
   "status": "partial",
   "theorems": [
    "Verif.Props.C93_refuted",
    "Verif.Props.C93_stored_partial"
   ],
   "note": "refuted: right after a device is added every write with data to a property the library does not fill itself is refused, for every device (C93_refuted), because the size compared is that of the data held, which is 0. Proved: once the application has stored data, every write of that length to a writable property is accepted"
  },
  {
   "property": "C94",
   "status": "partial",
   "theorems": [
    "Verif.Props.C94_refuted_any",
    "Verif.Props.C94_open_partial",
    "Verif.Props.C94_stopped",
    "Verif.Props.C94_refuted",
    "Verif.Props.C94_equals",
    "Verif.Props.C94_refuted_equals"
   ],
   "note": "refuted: with automatic port binding Address() can be that of a server left over from an earlier port, so that nothing is bound to Address():Port() (C94_refuted, C94_refuted_any), and stopped nodes with the same port are all equal (C94_refuted_equals). Proved without automatic port binding, and for stopped nodes"
  },
  {
   "property": "C95",
   "status": "proved",
   "theorems": [
    "Verif.Props.C95_restart",
    "Verif.Props.C95_fresh",
    "Verif.Props.C95_stop_error"
   ],
   "note": "Restart is shown equal to Start on every reachable state; C95_stop_error says what is left when stopping reports an error"
  },
  {
   "property": "C96",
   "status": "partial",
   "theorems": [
    "Verif.Props.C96_refuted_any",
    "Verif.Props.C96_ignored_partial",
    "Verif.Props.C96_refuted"
   ],
   "note": "refuted: when sending through the first server fails, the announcement comes from another address than Address() and the node handles it (C96_refuted), and with automatic ports on every host of a kind (C96_refuted_any). Proved without automatic port binding when the first attempt succeeds"
  },
  {
   "property": "C97",
   "status": "partial",
   "theorems": [
    "Verif.Props.C97_refuted_any",
    "Verif.Props.C97_not_listed_partial",
    "Verif.Props.C97_refuted"
   ],
   "note": "refuted: with automatic port binding a controller can list itself (C97_refuted; C97_refuted_any: on every host of a kind, after the first start). Proved without automatic port binding on port 3610 while the interfaces do not change"
  },
  {
   "property": "C98",
   "status": "partial",
   "theorems": [
    "Verif.Props.C98_network_partial",
    "Verif.Props.C98_refuted"
   ],
   "note": "refuted: the answers of nodes with 85 or more devices change nothing in any controller (C98_refuted). Proved for networks of nodes with at most 84 devices of classes in the database, any number of nodes"
  },
  {
   "property": "C99",
   "status": "partial",
   "theorems": [
    "Verif.Props.C99_heard_partial",
    "Verif.Props.C99_refuted"
   ],
   "note": "refuted: data of 256 bytes or more arrive cut (C99_refuted). Proved for writes of at most 255 bytes"
  },
  {
   "property": "C100",
   "status": "proved",
   "theorems": [
    "Verif.Props.C100_read",
    "Verif.Props.C100_write_read"
   ],
   "note": "for frames that arrive in one portion, as the quantifier says; cut frames are C79"
  },
  {
   "property": "C101",
   "status": "partial",
   "theorems": [
    "Verif.Props.C101_refuted",
    "Verif.Props.C101_partial",
    "Verif.Props.C101_ends_partial"
   ],
   "note": "refuted: a message can be overtaken by the next one for every node, object and property (C101_refuted). Proved for messages each handled before the next one arrives"
  },
  {
   "property": "C102",
   "status": "partial",
   "theorems": [
    "Verif.Props.C102_refuted",
    "Verif.Props.C102_partial"
   ],
   "note": "refuted: two writes of the same two properties can leave the data of the one for the first and of the other for the second (C102_refuted). Proved: in every schedule a request is handled as if alone if the others are for other objects or only read"
  },
  {
   "property": "C103",
   "status": "proved",
   "theorems": [
    "Verif.Props.C103_fails",
    "Verif.Props.C103_waits",
    "Verif.Props.C103_found"
   ],
   "note": "that the nodes are listed is composed with C98, for nodes of at most 84 devices"
  },
  {
   "property": "C104",
   "status": "proved",
   "theorems": [
    "Verif.Props.C104_options",
    "Verif.Props.C104_order",
    "Verif.Props.C104_described"
   ],
   "note": "a device is a value in the model; the same device given twice gets the same writes either way"
  },
  {
   "property": "C105",
   "status": "partial",
   "theorems": [
    "Verif.Props.C105_database",
    "Verif.Props.C105_apart_partial",
    "Verif.Props.C105_announced_partial",
    "Verif.Props.C105_refuted"
   ],
   "note": "refuted: a property added to two objects is shared, a write to the second shows in the first and a write to the first is announced for the second (C105_refuted). Proved for histories in which each property is added once and its code, name and attributes are set before; the database part for all histories that add each property once"
  },
  {
   "property": "C106",
   "status": "partial",
   "theorems": [
    "Verif.Props.C106_refuted_code",
    "Verif.Props.C106_refuted_replaced",
    "Verif.Props.C106_refuted_object",
    "Verif.Props.C106_maps_partial",
    "Verif.Props.C106_seen",
    "Verif.Props.C106_refuted_attrs"
   ],
   "note": "refuted: after SetCode the property is still found under the old code only (C106_refuted_code), attribute changes leave the property maps as they were (C106_refuted_attrs), a replaced property still announces (C106_refuted_replaced), a property announces for whatever object SetObject named (C106_refuted_object). Proved: changed attributes are seen at once and nothing else changes (C106_seen), the maps are current after the next AddProperty (C106_maps_partial)"
  },
  {
   "property": "C107",
   "status": "partial",
   "theorems": [
    "Verif.Props.C107_refuted",
    "Verif.Props.C107_readers_partial",
    "Verif.Props.C107_single_partial"
   ],
   "note": "refuted: whenever one goroutine calls AddProperty, or SetCode of a known class, and another uses the object at all, some schedule uses the map during the assignment (C107_refuted). Proved: never if no goroutine adds properties, or if one goroutine alone uses the object"
  },
  {
   "property": "C108",
   "status": "proved",
   "theorems": [
    "Verif.Props.C108_start",
    "Verif.Props.C108_message",
    "Verif.Props.C108_history",
    "Verif.Props.C108_switch",
    "Verif.Props.C108_refused",
    "Verif.Props.C108_read"
   ],
   "note": "about the model of the request handler together with the modelled library; lines printed are C109"
  },
  {
   "property": "C109",
   "status": "partial",
   "theorems": [
    "Verif.Props.C109_refuted",
    "Verif.Props.C109_lines_partial"
   ],
   "note": "refuted: every line shows the service, as the codes of its two digits, instead of the property, and the new state twice (C109_refuted). Proved: one line for each switch, none otherwise, ending with the new state"
  },
  {
   "property": "C110",
   "status": "partial",
   "theorems": [
    "Verif.Props.C110_request_partial",
    "Verif.Props.C110_stops",
    "Verif.Props.C110_refuted",
    "Verif.Props.C110_refuted_read",
    "Verif.Props.C110_refuted_light"
   ],
   "note": "refuted: the size of documented arguments is sent as data (C110_refuted), so that the documented command cannot switch the example light (C110_refuted_light), and properties without data cannot be requested (C110_refuted_read). Proved for arguments of code and data without a size, and that other arguments send nothing (C110_stops)"
  },
  {
   "property": "C111",
   "status": "partial",
   "theorems": [
    "Verif.Props.C111_refuted",
    "Verif.Props.C111_refuted_tcp",
    "Verif.Props.C111_partial",
    "Verif.Props.C111_handled_partial",
    "Verif.Props.C111_ends_partial"
   ],
   "note": "refuted: a message read before Stop is handled after it has returned (C111_refuted), and an accepted connection is still served (C111_refuted_tcp). Proved: at most one message for each server follows, only messages received before or on connections accepted before (C111_partial, C111_handled_partial), and each receive goroutine ends within six steps of its own (C111_ends_partial)"
  },
  {
   "property": "C112",
   "status": "partial",
   "theorems": [
    "Verif.Props.C112_refuted",
    "Verif.Props.C112_partial",
    "Verif.Props.C112_returns_partial"
   ],
   "note": "refuted: two overlapping calls close a channel twice, which ends the process (C112_refuted). Proved: no crash when calls do not overlap (C112_partial), and a bound on the steps of a call in every schedule without a crash (C112_returns_partial)"
  },
  {
   "property": "C113",
   "status": "partial",
   "theorems": [
    "Verif.Props.C113_refuted",
    "Verif.Props.C113_partial"
   ],
   "note": "refuted: after Stop a reply is sent from a new socket with another port (C113_refuted). Proved for every schedule without Stop"
  },
  {
   "property": "C114",
   "status": "partial",
   "theorems": [
    "Verif.Props.C114_refuted",
    "Verif.Props.C114_partial",
    "Verif.Props.C114_ends_partial"
   ],
   "note": "refuted: a request to a multicast server handled before Start has given it its unicast server is not answered (C114_refuted). Proved for unicast servers, and for all once Start has returned (C114_partial), with a bound on the steps (C114_ends_partial)"
  },
  {
   "property": "C115",
   "status": "proved",
   "theorems": [
    "Verif.Props.C115_udp",
    "Verif.Props.C115_listener",
    "Verif.Props.C115_tcp",
    "Verif.Props.C115_made"
   ],
   "note": ""
  },
  {
   "property": "C116",
   "status": "partial",
   "theorems": [
    "Verif.Props.C116_refuted",
    "Verif.Props.C116_partial",
    "Verif.Props.C116_requests_partial"
   ],
   "note": "refuted: every change of the code of a device makes the node profile wrong (C116_refuted). Proved: adding any device or profile puts it right (C116_partial), and requests follow the new code at once (C116_requests_partial)"
  },
  {
   "property": "C117",
   "status": "partial",
   "theorems": [
    "Verif.Props.C117_refuted",
    "Verif.Props.C117_refuted_reply",
    "Verif.Props.C117_refuted_reached",
    "Verif.Props.C117_partial"
   ],
   "note": "refuted: AddDevice takes a device with a code the node has already, and no message ever reaches it (C117_refuted, C117_refuted_reply, C117_refuted_reached). Proved for nodes whose objects have different codes"
  },
  {
   "property": "C118",
   "status": "partial",
   "theorems": [
    "Verif.Props.C118_refuted",
    "Verif.Props.C118_partial"
   ],
   "note": "refuted: every such message is answered, whatever its service (C118_refuted). Proved: no callback is called and nothing changes"
  },
  {
   "property": "C119",
   "status": "partial",
   "theorems": [
    "Verif.Props.C119_refuted",
    "Verif.Props.C119_partial"
   ],
   "note": "refuted: if one property can not be processed, none is (C119_refuted). Proved: a message is processed completely or not at all"
  },
  {
   "property": "C120",
   "status": "partial",
   "theorems": [
    "Verif.Props.C120_refuted",
    "Verif.Props.C120_refuted_plain",
    "Verif.Props.C120_partial"
   ],
   "note": "refuted: the response holds the current data of each property (C120_refuted, C120_refuted_plain). Proved: it names the properties of the request in order"
  },
  {
   "property": "C121",
   "status": "partial",
   "theorems": [
    "Verif.Props.C121_refuted",
    "Verif.Props.C121_refuted_any",
    "Verif.Props.C121_partial"
   ],
   "note": "refuted: a request for a notification gets the data of every property (C121_refuted), and so do the confirmation of a write and the acknowledgement of a notification (C121_refuted_any). Proved for requests that read, in every history of callbacks"
  },
  {
   "property": "C122",
   "status": "partial",
   "theorems": [
    "Verif.Props.C122_refuted",
    "Verif.Props.C122_partial",
    "Verif.Props.C122_refuted_send"
   ],
   "note": "refuted: the properties to read are not seen (C122_refuted) and no message has the bytes of such a request (C122_refuted_send). Proved: the properties to write arrive"
  },
  {
   "property": "C123",
   "status": "partial",
   "theorems": [
    "Verif.Props.C123_refuted",
    "Verif.Props.C123_partial"
   ],
   "note": "refuted: such a request is never refused when the object exists (C123_refuted). Proved: refused when the object does not exist, and data of properties the object has is notified"
  },
  {
   "property": "C124",
   "status": "proved",
   "theorems": [
    "Verif.Props.C124_refused",
    "Verif.Props.C124_sizes"
   ],
   "note": "for programs whose callbacks do nothing but store the data of write requests, and calls of the program that keep sizes"
  },
  {
   "property": "C125",
   "status": "proved",
   "theorems": [
    "Verif.Props.C125_kept"
   ],
   "note": "for programs whose callbacks do nothing but store the data of write requests"
  },
  {
   "property": "C126",
   "status": "proved",
   "theorems": [
    "Verif.Props.C126_objects",
    "Verif.Props.C126_classes",
    "Verif.Props.C126_manufacturers"
   ],
   "note": "for all orders, and all tables; the tables of the library have 57 classes"
  },
  {
   "property": "C127",
   "status": "partial",
   "theorems": [
    "Verif.Props.C127_lists",
    "Verif.Props.C127_open_partial",
    "Verif.Props.C127_none",
    "Verif.Props.C127_covers",
    "Verif.Props.C127_refuted",
    "Verif.Props.C127_refuted_ended",
    "Verif.Props.C127_refuted_any"
   ],
   "note": "refuted: an address no unicast socket is bound to is listed (C127_refuted, C127_refuted_any), and an address stays listed when its socket has been closed (C127_refuted_ended). Proved: what is listed after a start, that each has an open multicast socket then, that every bound unicast address is listed, and that none is listed after Stop or a failed start"
  },
  {
   "property": "C128",
   "status": "partial",
   "theorems": [
    "Verif.Props.C128_waits",
    "Verif.Props.C128_queue_partial",
    "Verif.Props.C128_alone_partial",
    "Verif.Props.C128_refuted",
    "Verif.Props.C128_returns"
   ],
   "note": "refuted: k + 1 posts called at once take up to k + 1 times the timeout (C128_refuted, for all k). Proved: the wait itself never takes longer than the timeout; k posts return within k times the timeout; one alone within the timeout; from every reachable state every post can return (C128_returns). Not covered here: the time a post spends over TCP (C175); steps of the program take no time in the model"
  },
  {
   "property": "C129",
   "status": "partial",
   "theorems": [
    "Verif.Props.C129_refuted_any",
    "Verif.Props.C129_same",
    "Verif.Props.C129_port_partial",
    "Verif.Props.C129_refuted"
   ],
   "note": "refuted with automatic port binding on several interfaces: Port() says 3611 and messages leave from 3610 (C129_refuted, C129_refuted_any). Proved: the two sockets of each server have one port in every history; without automatic binding every datagram leaves from Port(). Not modelled: the source port of TCP connections, which the system chooses because DialTCP is given no local address"
  },
  {
   "property": "C130",
   "status": "partial",
   "theorems": [
    "Verif.Props.C130_partial",
    "Verif.Props.C130_refuted",
    "Verif.Props.C130_refuted_empty"
   ],
   "note": "refuted: the answer omits the properties the receiving object does not have and holds its own data for the others (C130_refuted, C130_refuted_empty). Proved: the listeners are called, and unless a callback fails or removes the object the node answers by INFC_Res with the same identifier and mirrored objects"
  },
  {
   "property": "C131",
   "status": "proved",
   "theorems": [
    "Verif.Props.C131_port",
    "Verif.Props.C131_everywhere"
   ],
   "note": "the port and the group in every history (C131_port); every address of every available interface after a successful start, when the system reports the same addresses each time it is asked (C131_everywhere)"
  },
  {
   "property": "C132",
   "status": "partial",
   "theorems": [
    "Verif.Props.C132_once",
    "Verif.Props.C132_all",
    "Verif.Props.C132_refuted",
    "Verif.Props.C132_same"
   ],
   "note": "refuted by one malformed datagram, after which the server hears nothing (C132_refuted; this is C56 in every schedule). Proved in every schedule: what a server takes are the messages of the first datagrams that reached it, each once, in order (C132_once); without Stop and with well-formed datagrams nothing is lost, and all is handed over after five steps of its goroutine for each (C132_all). C132_same ties this to the sequential model of the receive loop"
  },
  {
   "property": "C133",
   "status": "partial",
   "theorems": [
    "Verif.Props.C133_refuted_version",
    "Verif.Props.C133_refuted_identification",
    "Verif.Props.C133_stored_partial"
   ],
   "note": "refuted for every profile and every value: the minor version is dropped and the version information has one byte (C133_refuted_version), the identification number lacks its first byte (C133_refuted_identification). Proved: what is stored, and that nothing else changes"
  },
  {
   "property": "C134",
   "status": "proved",
   "theorems": [
    "Verif.Props.C134_profile",
    "Verif.Props.C134_kind",
    "Verif.Props.C134_equal",
    "Verif.Props.C134_same_class"
   ],
   "note": "all histories of calls on plain objects, devices and profiles"
  },
  {
   "property": "C135",
   "status": "proved",
   "theorems": [
    "Verif.Props.C135_equals",
    "Verif.Props.C135_copy",
    "Verif.Props.C135_codes"
   ],
   "note": "the sharing of data by copies is in C17 and C105"
  },
  {
   "property": "C136",
   "status": "partial",
   "theorems": [
    "Verif.Props.C136_first",
    "Verif.Props.C136_found_partial",
    "Verif.Props.C136_refuted",
    "Verif.Props.C136_refuted_reachable"
   ],
   "note": "refuted with automatic port binding: of two nodes of one host only the first is found (C136_refuted, C136_refuted_reachable). Proved: which node is found, always (C136_first); without automatic port binding every node of Nodes() is found (C136_found_partial)"
  },
  {
   "property": "C137",
   "status": "proved",
   "theorems": [
    "Verif.Props.C137_code",
    "Verif.Props.C137_distinct",
    "Verif.Props.C137_service",
    "Verif.Props.C137_message",
    "Verif.Props.C137_retyped"
   ],
   "note": "codes, services, messages, and the way from the printed scan to the typed request"
  },
  {
   "property": "C138",
   "status": "proved",
   "theorems": [
    "Verif.Props.C138_distinct",
    "Verif.Props.C138_back"
   ],
   "note": "both kinds of nodes"
  },
  {
   "property": "C139",
   "status": "partial",
   "theorems": [
    "Verif.Props.C139_refuted",
    "Verif.Props.C139_distinct_partial",
    "Verif.Props.C139_properties_partial"
   ],
   "note": "refuted for every object code and every service: the digits printed are those of the characters of the code, since the types have a method String (C139_refuted). Proved: different codes are printed differently (C139_distinct_partial); codes and data of properties are right (C139_properties_partial; for uechopost with codes from 0x10 on and data that is not empty)"
  },
  {
   "property": "C140",
   "status": "proved",
   "theorems": [
    "Verif.Props.C140_search",
    "Verif.Props.C140_bench"
   ],
   "note": "lines before they are formatted; the texts are C139"
  },
  {
   "property": "C141",
   "status": "partial",
   "theorems": [
    "Verif.Props.C141_value_partial",
    "Verif.Props.C141_refuted"
   ],
   "note": "refuted: after a timeout the message is not nil, and every method of it panics (C141_refuted). Proved: no other error comes with a message, and without an error the message can be read (C141_value_partial)"
  },
  {
   "property": "C142",
   "status": "partial",
   "theorems": [
    "Verif.Props.C142_source_partial",
    "Verif.Props.C142_refuted_udp",
    "Verif.Props.C142_refuted_tcp"
   ],
   "note": "refuted for every peer with a zone (link-local IPv6): over UDP the zone is lost (C142_refuted_udp), over TCP the address is lost (C142_refuted_tcp). Proved: all peers without a zone (C142_source_partial)"
  },
  {
   "property": "C143",
   "status": "partial",
   "theorems": [
    "Verif.Props.C143_refuted_short",
    "Verif.Props.C143_refuted_bytes",
    "Verif.Props.C143_options_partial",
    "Verif.Props.C143_bytes"
   ],
   "note": "refuted: every WithClassBytes with fewer than two bytes crashes (C143_refuted_short), and a class changes when the slice Bytes returned is written (C143_refuted_bytes). Proved: all other lists of options (C143_options_partial), and a class is made again from its bytes (C143_bytes)"
  },
  {
   "property": "C144",
   "status": "partial",
   "theorems": [
    "Verif.Props.C144_later_devices_partial",
    "Verif.Props.C144_refuted_attributes",
    "Verif.Props.C144_refuted_class_name"
   ],
   "note": "refuted for every table and history: attributes of properties (C144_refuted_attributes) and names of classes (C144_refuted_class_name) set in an entry of the database reach the devices made later. Proved: data, names and code bytes stored in entries do not (C144_later_devices_partial)"
  },
  {
   "property": "C145",
   "status": "partial",
   "theorems": [
    "Verif.Props.C145_refuted_close",
    "Verif.Props.C145_refuted_rebind",
    "Verif.Props.C145_refuted_free_port",
    "Verif.Props.C145_refuted_listener",
    "Verif.Props.C145_reports_partial",
    "Verif.Props.C145_open_partial",
    "Verif.Props.C145_bound_partial"
   ],
   "note": "refuted for every bound socket: it reports that it is bound after Close (C145_refuted_close) and after a Bind that failed (C145_refuted_rebind); bound to port 0 it reports that it is not bound (C145_refuted_free_port); a TCP Bind that fails late leaves the listener open (C145_refuted_listener). Proved: what the last successful Bind gave is reported (C145_reports_partial, C145_bound_partial), and a unicast socket is open exactly after a successful Bind (C145_open_partial)"
  },
  {
   "property": "C146",
   "status": "partial",
   "theorems": [
    "Verif.Props.C146_refuted",
    "Verif.Props.C146_announced_partial",
    "Verif.Props.C146_last_partial",
    "Verif.Props.C146_running"
   ],
   "note": "refuted for every history that adds one device to two nodes: only the node it was added to last announces it, and nobody when that one is stopped (C146_refuted). Proved for every history that adds the device to at most one node (C146_announced_partial)"
  },
  {
   "property": "C147",
   "status": "partial",
   "theorems": [
    "Verif.Props.C147_bad_arguments",
    "Verif.Props.C147_get",
    "Verif.Props.C147_set",
    "Verif.Props.C147_one_request",
    "Verif.Props.C147_silent_partial",
    "Verif.Props.C147_refuted_running",
    "Verif.Props.C147_refuted_set",
    "Verif.Props.C147_scan"
   ],
   "note": "refuted: every run that fails after the controller was started leaves it running (C147_refuted_running); a set succeeds although the device refuses the value (C147_refuted_set). Proved: bad arguments, at most one request to the right node, exactly when each command succeeds and what it has done and printed then, no output of a get that fails unless stopping failed"
  },
  {
   "property": "C148",
   "status": "proved",
   "theorems": [
    "Verif.Props.C148_sequence"
   ],
   "note": "the schedules are those of the quantifier; what happens when messages are handled while posts begin and end is in C50, C52 and C69. handler_agrees and post_agrees say that the machine of Model/Post agrees with Model/Handler and Model/Node"
  },
  {
   "property": "C149",
   "status": "proved",
   "theorems": [
    "Verif.Props.C149_fixed_port",
    "Verif.Props.C149_automatic_port"
   ],
   "note": "the code binds in loops whose error is that of the last interface; this theorem says exactly what that means, and C59, C60, C61, C94, C127 and C129 are refuted from it for every host of a kind (the theorems ending in _any)"
  },
  {
   "property": "C150",
   "status": "partial",
   "theorems": [
    "Verif.Props.C150_maps",
    "Verif.Props.C150_refuted_any",
    "Verif.Props.C150_refuted_code",
    "Verif.Props.C150_agree_partial",
    "Verif.Props.C150_repaired_partial"
   ],
   "note": "handlers get the inner object, whose AddProperty does not update the property maps and whose SetCode adds no standard properties: refuted for every device and new readable property (C150_refuted_any) and every standard class (C150_refuted_code); C150_maps says exactly when the maps stay right. Missing from the partial theorems: the maps and the standard properties, which the next AddProperty on the device repairs as to the maps"
  },
  {
   "property": "C151",
   "status": "partial",
   "theorems": [
    "Verif.Props.C151_alone_partial",
    "Verif.Props.C151_calls_partial",
    "Verif.Props.C151_refuted_service",
    "Verif.Props.C151_refuted_code"
   ],
   "note": "refuted: the callbacks get the message itself, so a listener that sets its service keeps the node from answering (C151_refuted_service) and a handler that sets the code of its property makes the node answer with another property, readable or not (C151_refuted_code). Proved: callbacks that leave the message alone are handled as in the other properties (C151_alone_partial), and whatever they do, only the callbacks of the object addressed are called, with the service received and at most twice for each property (C151_calls_partial)"
  },
  {
   "property": "C152",
   "status": "proved",
   "theorems": [
    "Verif.Props.C152_set",
    "Verif.Props.C152_once",
    "Verif.Props.C152_set_on_arrival"
   ],
   "note": ""
  },
  {
   "property": "C153",
   "status": "partial",
   "theorems": [
    "Verif.Props.C153_contents_partial",
    "Verif.Props.C153_snapshot_partial",
    "Verif.Props.C153_objects_partial",
    "Verif.Props.C153_refuted_write",
    "Verif.Props.C153_refuted_append",
    "Verif.Props.C153_refuted_added"
   ],
   "note": "refuted: a program that writes to a list it got replaces the element of the library (C153_refuted_write); when the array has room, one that appends replaces what the library added since (C153_refuted_append), and what the library adds replaces what the program appended (C153_refuted_added). Proved: as long as the program writes and appends only to lists made for it, as that of Objects, the library holds what was added, lists returned never change and lists of its own are not changed by the library"
  },
  {
   "property": "C154",
   "status": "partial",
   "theorems": [
    "Verif.Props.C154_filled_partial",
    "Verif.Props.C154_kept_partial",
    "Verif.Props.C154_refuted",
    "Verif.Props.C154_uninterrupted_partial",
    "Verif.Props.C154_distinct_partial"
   ],
   "note": "refuted: with room in the array and two nodes added at the same time, a list that was returned changes (C154_refuted); a node can be listed twice (C45). Proved for every schedule: only nodes that were heard of, no nil (C154_filled_partial); lists returned while no node was being added never change (C154_kept_partial); no node twice when the messages are of different nodes (C154_distinct_partial); a handler that is not interrupted does what the model of the controller says (C154_uninterrupted_partial)"
  },
  {
   "property": "C155",
   "status": "proved",
   "theorems": [
    "Verif.Props.C155_message",
    "Verif.Props.C155_found",
    "Verif.Props.C155_silent",
    "Verif.Props.C155_unique",
    "Verif.Props.C155_again",
    "Verif.Props.C155_same"
   ],
   "note": "searches started by the listener are not modelled, they wait"
  },
  {
   "property": "C156",
   "status": "partial",
   "theorems": [
    "Verif.Props.C156_ends_partial",
    "Verif.Props.C156_attempts",
    "Verif.Props.C156_refuted_any"
   ],
   "note": "refuted for the largest number of retries: the counter never exceeds it, so a start whose sockets are refused goes on for ever (C156_refuted_any). Proved: with every other number the retries end and do what the other properties of starts say (C156_ends_partial); while all sockets are refused there is one attempt more than retries (C156_attempts)"
  },
  {
   "property": "C157",
   "status": "partial",
   "theorems": [
    "Verif.Props.C157_used",
    "Verif.Props.C157_agree_partial",
    "Verif.Props.C157_default",
    "Verif.Props.C157_refuted_any",
    "Verif.Props.C157_refuted_running"
   ],
   "note": "refuted: the node keeps the configuration itself but the transport a copy, so what is changed in it later is shown and not used (C157_refuted_any), and running servers keep what they were started with (C157_refuted_running). Proved: exactly what each part works with after every history (C157_used, C157_default), and agreement for configurations not changed after they were given, from the next start on (C157_agree_partial)"
  },
  {
   "property": "C158",
   "status": "partial",
   "theorems": [
    "Verif.Props.C158_answered_partial",
    "Verif.Props.C158_read_partial",
    "Verif.Props.C158_refuted_any"
   ],
   "note": "refuted once identifiers are used again: 65536 messages later a late answer to an earlier post is returned, with data from before a change made long before the call (C158_refuted_any). Proved for every history with at most 65536 identifiers used: the response is the answer to the own request, made during the call (C158_answered_partial), and a read returns the data of one moment of the call, or a refusal of that moment (C158_read_partial)"
  },
  {
   "property": "C159",
   "status": "partial",
   "theorems": [
    "Verif.Props.C159_refuted_late_any",
    "Verif.Props.C159_refuted_twice_any",
    "Verif.Props.C159_write_partial",
    "Verif.Props.C159_order_partial"
   ],
   "note": "refuted: a request that was given up and arrives late undoes a confirmed write (C159_refuted_late_any), and so does a datagram delivered twice (C159_refuted_twice_any): requests are not told apart from ones handled before. Proved: a confirmed write took effect during its call (C159_write_partial), and requests take effect in order if no post gives up and no datagram arrives twice (C159_order_partial)"
  },
  {
   "property": "C160",
   "status": "partial",
   "theorems": [
    "Verif.Props.C160_each_partial",
    "Verif.Props.C160_refused_partial",
    "Verif.Props.C160_steady_partial",
    "Verif.Props.C160_refuted"
   ],
   "note": "refuted: a reply shows the old data of one property and the new data of another, which the object never held together, for every object and every two properties (C160_refuted). Proved for every schedule: each property of the reply is as it was at a moment after the arrival, the moments being in order (C160_each_partial); a refused message was at such a moment not acceptable (C160_refused_partial); the reply shows the object as it is at every moment if the properties asked for do not change in the meantime (C160_steady_partial)"
  },
  {
   "property": "C161",
   "status": "partial",
   "theorems": [
    "Verif.Props.C161_answered_partial",
    "Verif.Props.C161_read_partial",
    "Verif.Props.C161_refuted"
   ],
   "note": "refuted: a post returns the old data of one property and the new data of another, which the object never held together, for every object and every two properties (C161_refuted). Proved for every schedule and every network behaviour, as long as no identifier is used twice: what a post returns is the answer to its own request, made between call and return (C161_answered_partial); each value is what the object held at a moment between call and return, these moments being in order, and a refusal means that at such a moment the object or the permission was missing (C161_read_partial)"
  },
  {
   "property": "C162",
   "status": "proved",
   "theorems": [
    "Verif.Props.C162_called"
   ],
   "note": "for every schedule (C162_called)"
  },
  {
   "property": "C163",
   "status": "partial",
   "theorems": [
    "Verif.Props.C163_write_partial",
    "Verif.Props.C163_refuted"
   ],
   "note": "refuted: a write of two properties is confirmed although the object never held both data together, for every object, every two properties and all data (C163_refuted). Proved for every schedule and every network behaviour, as long as no identifier is used twice and the request has at most 1024 bytes: each property was written once, with the data of the request, at moments in order between call and return, after the object had permitted it (C163_write_partial)"
  },
  {
   "property": "C164",
   "status": "partial",
   "theorems": [
    "Verif.Props.C164_alone_partial",
    "Verif.Props.C164_independent_partial",
    "Verif.Props.C164_refuted"
   ],
   "note": "refuted: if a device is added to two nodes, SetManufacturerCode of one changes what the device of the other reports, after every history (C164_refuted). Proved for every history in which the objects of the node are added to it only, once, and not given another parent: the other calls can be left out (C164_independent_partial), and the node is as one that is alone and owns its objects (C164_alone_partial)"
  },
  {
   "property": "C165",
   "status": "partial",
   "theorems": [
    "Verif.Props.C165_refuted",
    "Verif.Props.C165_found_partial"
   ],
   "note": "refuted: Devices lists it once more and the node profile reports one instance more, after every history (C165_refuted). Proved: every lookup finds the same object (C165_found_partial)"
  },
  {
   "property": "C166",
   "status": "proved",
   "theorems": [
    "Verif.Props.C166_ends",
    "Verif.Props.C166_fair"
   ],
   "note": "with an explicit bound if no callback makes more than B calls (C166_ends), and for callbacks that make any finite number of calls in every schedule in which the goroutine goes on again and again (C166_fair)"
  },
  {
   "property": "C167",
   "status": "proved",
   "theorems": [
    "Verif.Props.C167_answered"
   ],
   "note": "the reply arrives as a datagram that is a message; long replies are cut off (C06)"
  },
  {
   "property": "C168",
   "status": "partial",
   "theorems": [
    "Verif.Props.C168_refuted",
    "Verif.Props.C168_each_partial",
    "Verif.Props.C168_count_partial",
    "Verif.Props.C168_final_partial",
    "Verif.Props.C168_one_partial"
   ],
   "note": "fails whenever two goroutines write at the same time: the data is changed and announced without a lock in between (C168_refuted). For every schedule: each announcement is made once, by a call, and holds data the property held during the call (C168_each_partial, C168_count_partial); the final data is announced after the last change, followed or preceded by fewer other announcements than there are goroutines (C168_final_partial); with one goroutine the last announcement is right (C168_one_partial)"
  },
  {
   "property": "C169",
   "status": "partial",
   "theorems": [
    "Verif.Props.C169_rest_partial",
    "Verif.Props.C169_bound_partial",
    "Verif.Props.C169_refuted"
   ],
   "note": "fails if callbacks write what they hear of: data is announced although it is what the property had, so two nodes that follow each other announce the same data for ever (C169_refuted). Holds if callbacks write properties only when the node is asked something, every node has a node profile, and the messages on their way name objects that are there (C169_rest_partial), with a bound on the number of messages (C169_bound_partial). Not covered: replies to replies that name unknown objects, which may go on for ever (C38)"
  },
  {
   "property": "C170",
   "status": "partial",
   "theorems": [
    "Verif.Props.C170_refuted_lost",
    "Verif.Props.C170_refuted_profile",
    "Verif.Props.C170_apart_partial",
    "Verif.Props.C170_listed_partial",
    "Verif.Props.C170_devices_partial",
    "Verif.Props.C170_profile_partial",
    "Verif.Props.C170_described_partial"
   ],
   "note": "fails whenever two goroutines add devices at the same time, as no lock is taken: one device may be lost (C170_refuted_lost), or the node profile may stay wrong (C170_refuted_profile). For every schedule: the node keeps the devices it had and has no device twice and no nil (C170_listed_partial); each device added has the manufacturer code and its node in the end (C170_devices_partial); each property of the node profile is right for some moment (C170_profile_partial). Holds if no two calls overlap (C170_apart_partial, C170_described_partial)"
  },
  {
   "property": "C171",
   "status": "partial",
   "theorems": [
    "Verif.Props.C171_moments_partial",
    "Verif.Props.C171_refuted"
   ],
   "note": "fails for every device that is new to the node: it is listed before it has its manufacturer code and its node, and before the node profile describes it (C171_refuted). Proved are the moments at which each part changes when one call runs (C171_moments_partial)"
  },
  {
   "property": "C172",
   "status": "partial",
   "theorems": [
    "Verif.Props.C172_apart_partial",
    "Verif.Props.C172_stopped_partial",
    "Verif.Props.C172_started_partial",
    "Verif.Props.C172_refuted",
    "Verif.Props.C172_refuted_blocked",
    "Verif.Props.C172_refuted_panic",
    "Verif.Props.C172_listed_partial"
   ],
   "note": "fails when a Start overlaps a Stop, as no lock is taken: a socket may stay open that no later call closes (C172_refuted); with one address and a fixed port no Start succeeds any more (C172_refuted_blocked); when a server runs, two calls at the same time panic (C172_refuted_panic). Proved when no two calls overlap: nothing panics and the open sockets are those listed (C172_apart_partial), a Stop closes all of them (C172_stopped_partial), and a Start on a host whose addresses are free starts one server for each (C172_started_partial). For every schedule: the list has no nil and no server that was not started, and no two open sockets have the same address and port (C172_listed_partial). Unicast UDP only"
  },
  {
   "property": "C173",
   "status": "partial",
   "theorems": [
    "Verif.Props.C173_once",
    "Verif.Props.C173_refuted",
    "Verif.Props.C173_bound_partial",
    "Verif.Props.C173_open",
    "Verif.Props.C173_stopped_partial",
    "Verif.Props.C173_returns_partial"
   ],
   "note": "the port is refuted: a call that has loaded the list of servers when Stop closes them returns without an error, and the message leaves from a new port (C173_refuted). Proved for every schedule: once or not at all, as the call says (C173_once), and a bound on the steps of a call (C173_returns_partial). Without Stop everything leaves over TCP or from the socket of a server (C173_bound_partial). After Stop calls return an error and send nothing (C173_stopped_partial). In every schedule, what leaves from the socket of a server leaves while it is open (C173_open). An attempt over TCP that fails is taken to send nothing"
  },
  {
   "property": "C174",
   "status": "partial",
   "theorems": [
    "Verif.Props.C174_agree_partial",
    "Verif.Props.C174_rest_partial",
    "Verif.Props.C174_refuted",
    "Verif.Props.C174_refuted_twice"
   ],
   "note": "refuted for writes on two nodes at the same time: although nothing is lost, the nodes swap their data for ever (C174_refuted), and also if one node is written again before the echo of the first write arrives (C174_refuted_twice). Proved for one write on any number of nodes when nothing is on its way: all get the data and the network is at rest, within as many messages as the square of the number of nodes, in every order (C174_agree_partial, C174_rest_partial)"
  },
  {
   "property": "C175",
   "status": "partial",
   "theorems": [
    "Verif.Props.C175_bound_partial",
    "Verif.Props.C175_refuted",
    "Verif.Props.C175_refuted_silent",
    "Verif.Props.C175_refuted_statement"
   ],
   "note": "refuted: connecting has no timeout, so sending and posting take longer than any bound (C175_refuted); a peer that takes requests and never answers keeps a post for the connection timeout on each interface and then the request timeout (C175_refuted_silent, C175_refuted_statement). Proved: a bound in terms of the longest time connecting takes, the timeouts and the number of interfaces (C175_bound_partial). Waiting for other posts is in C128"
  },
  {
   "property": "C176",
   "status": "partial",
   "theorems": [
    "Verif.Props.C176_answered_partial",
    "Verif.Props.C176_returns_partial",
    "Verif.Props.C176_own_partial",
    "Verif.Props.C176_refuted",
    "Verif.Props.C176_cycle_refuted",
    "Verif.Props.C176_requests_partial",
    "Verif.Props.C176_chain_partial",
    "Verif.Props.C176_either_partial",
    "Verif.Props.C176_moves_partial",
    "Verif.Props.C176_endless_refuted"
   ],
   "note": "refuted: if the callback for a request asks the node that posts it for something that this node has to post for itself, these posts wait for each other until one times out, although nothing is lost (C176_refuted), and the same happens over any number of nodes, or if a node asks itself, whoever else posts or times out (C176_cycle_refuted); callbacks that ask each other without end keep the network busy for ever after one post (C176_endless_refuted). Proved: if callbacks that post in order to answer stand lower than those who ask them, nothing gets stuck and every post is answered (C176_answered_partial); with losses and timeouts too every post returns, after a bounded number of steps (C176_returns_partial); only the requests that are made need to go to lower nodes (C176_requests_partial), so a chain of posts that ends is answered, also if it ends at a node that waits (C176_chain_partial); in a finite network whose callbacks make at most one post each, every post is either always answered or can get stuck (C176_either_partial); and whatever happens, a post only returns an answer to its own request, given after the callbacks of the node asked have made all their posts (C176_own_partial). For all callbacks something can always happen as long as a goroutine is not through (C176_moves_partial). The network may repeat datagrams. Messages are labels here, not bytes"
  },
  {
   "property": "C177",
   "status": "partial",
   "theorems": [
    "Verif.Props.C177_ends_partial",
    "Verif.Props.C177_refuted",
    "Verif.Props.C177_refuted_once"
   ],
   "note": "refuted: addNode works on the list of nodes without a lock, so in every network with two nodes or more a handler that is slow can put back an old list; the other node is then found again, and the listener searches without end after two searches of the program (C177_refuted), or after one if there are three nodes (C177_refuted_once). Proved: while no two messages are handled at the same time, the listener searches at most once for each address and port in the network, no node is listed twice, and the handlers take at most three steps for each message (C177_ends_partial)"
  },
  {
   "property": "C178",
   "status": "partial",
   "theorems": [
    "Verif.Props.C178_refuted",
    "Verif.Props.C178_refuted_post",
    "Verif.Props.C178_handlers",
    "Verif.Props.C178_refuted_start",
    "Verif.Props.C178_refuted_multicast",
    "Verif.Props.C178_refuted_tcp",
    "Verif.Props.C178_refuted_stop",
    "Verif.Props.C178_refuted_sends",
    "Verif.Props.C178_pairs",
    "Verif.Props.C178_refuted_found",
    "Verif.Props.C178_partial",
    "Verif.Props.C178_tcp_partial",
    "Verif.Props.C178_posts_partial",
    "Verif.Props.C178_careful_partial"
   ],
   "note": "refuted: there is a data race in every execution in which a node has been started and a unicast message over UDP (C178_refuted_start) or TCP (C178_refuted_tcp) or a multicast message (C178_refuted_multicast) is handled, Stop closes a socket (C178_refuted_stop), a post is answered over UDP (C178_refuted_post), two goroutines send (C178_refuted_sends), two messages make nodes known to a controller (C178_refuted_found), or a call made after Start writes what the handler of a message reads, or the other way round (C178_refuted). Proved: if one goroutine makes all calls, and after Start only sends, announces, searches and reads, the races of Start are the only ones (C178_partial, with TCP C178_tcp_partial); posts over UDP do not race among themselves (C178_posts_partial); goroutines that hold a mutex of the program during each call do not race among themselves (C178_careful_partial), though they do with the handlers; goroutines that neither post nor start anything race exactly for the fields that both use and one writes (C178_pairs), and a goroutine races with the handler of a message that no post waits for exactly for the fields that both use and one writes, and that it does not use before the start of the loop only (C178_handlers)"
  },
  {
   "property": "C179",
   "status": "proved",
   "theorems": [
    "Verif.Props.C179_exact",
    "Verif.Props.C179_size"
   ],
   "note": ""
  },
  {
   "property": "C180",
   "status": "partial",
   "theorems": [
    "Verif.Props.C180_ipv4_partial",
    "Verif.Props.C180_never",
    "Verif.Props.C180_refuted"
   ],
   "note": "refuted: IsIPv6Interface is false for every interface (C180_never), also for those with an IPv6 address (C180_refuted), as GetInterfaceAddresses leaves out IPv6 addresses. Proved: IsIPv4Interface (C180_ipv4_partial)"
  },
  {
   "property": "C181",
   "status": "partial",
   "theorems": [
    "Verif.Props.C181_safe",
    "Verif.Props.C181_once",
    "Verif.Props.C181_open",
    "Verif.Props.C181_returns",
    "Verif.Props.C181_refuted",
    "Verif.Props.C181_sends",
    "Verif.Props.C181_bound_partial"
   ],
   "note": "refuted: a call that began before a Start or Stop can send from another port (C181_refuted). Proved for all schedules: no call panics, though Start and Stop can (C181_safe), each message is sent once or an error returned (C181_once), a server sends only while its socket is open (C181_open), every call returns (C181_returns), and one that is not disturbed sends from the first server (C181_sends). If no two calls of Start and Stop overlap, calls made between them send from the sockets of the servers (C181_bound_partial)"
  }
 ]
}
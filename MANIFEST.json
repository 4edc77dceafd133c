{
 "claims": [
  {
   "property": "C01",
   "status": "partial",
   "theorems": [
    "Uecho.C01_encode_decode_partial",
    "Uecho.C01_fails_for_0x5E"
   ],
   "note": "Proved for every service except 0x5E; C01_fails_for_0x5E proves that for 0x5E decoding an encoded message always panics, so the full property is false of the code."
  },
  {
   "property": "C02",
   "status": "partial",
   "theorems": [
    "Uecho.C02_decode_encode_partial",
    "Uecho.C02_nothing_lost",
    "Uecho.C02_fails_for_0x5E"
   ],
   "note": "Proved for every service except 0x5E, for which the encoder drops both lists (C02_fails_for_0x5E); C02_nothing_lost shows that the decoded fields still determine the consumed bytes for all services."
  },
  {
   "property": "C03",
   "status": "partial",
   "theorems": [
    "Uecho.C03_panic_characterisation",
    "Uecho.C03_fails",
    "Uecho.C03_no_panic_partial",
    "Uecho.C03_fromBytes"
   ],
   "note": "The exact set of panicking datagrams is characterised (C03_panic_characterisation); the full property is false (C03_fails)."
  },
  {
   "property": "C04",
   "status": "proved",
   "theorems": [
    "Uecho.C04_accepts_exactly_frames"
   ],
   "note": ""
  },
  {
   "property": "C05",
   "status": "proved",
   "theorems": [
    "Uecho.C05_truncated_frame_rejected",
    "Uecho.C05_truncated_message_rejected",
    "Uecho.C05_other_header_rejected"
   ],
   "note": "C05_other_header_rejected: a frame with another header is rejected as a whole."
  },
  {
   "property": "C06",
   "status": "proved",
   "theorems": [
    "Uecho.C06_frame_unambiguous",
    "Uecho.C06_encoding_unambiguous"
   ],
   "note": ""
  },
  {
   "property": "C07",
   "status": "partial",
   "theorems": [
    "Uecho.C07_clone_partial",
    "Uecho.C07_clone_panics_for_0x5E",
    "Uecho.C07_clone_loses_sender",
    "Uecho.C07_clone_fails_other_header"
   ],
   "note": "Holds except for service 0x5E (panics, C07_clone_panics_for_0x5E), for the sender address, which is always lost (C07_clone_loses_sender), and for a message with a foreign header, of which nothing is copied (C07_clone_fails_other_header)."
  },
  {
   "property": "C08",
   "status": "partial",
   "theorems": [
    "Uecho.C08_equals_characterisation",
    "Uecho.C08_equals_partial",
    "Uecho.C08_equals_ignores_setget",
    "Uecho.C08_fails"
   ],
   "note": "Exact characterisation; the full property is false because the set/get lists are ignored (C08_fails)."
  },
  {
   "property": "C09",
   "status": "proved",
   "theorems": [
    "Uecho.C09_header_accessors",
    "Uecho.C09_hasTid"
   ],
   "note": ""
  },
  {
   "property": "C10",
   "status": "proved",
   "theorems": [
    "Uecho.C10_fromU8_toU8",
    "Uecho.C10_fromU8",
    "Uecho.C10_classes",
    "Uecho.C10_partition"
   ],
   "note": ""
  },
  {
   "property": "C100",
   "status": "proved",
   "theorems": [
    "Uecho.C100_chatter",
    "Uecho.C100_harmless",
    "Uecho.C100_all_executions"
   ],
   "note": "C100_chatter, C100_harmless, C100_all_executions. The case of one message at a time is C98. That the network comes to rest when nobody sends any more is C84_progress; no observer has panicked before. Messages within the receive buffer are an assumption (see C05)."
  },
  {
   "property": "C101",
   "status": "proved",
   "theorems": [
    "Uecho.C101_descriptions",
    "Uecho.C101_at_once",
    "Uecho.C101_any_time",
    "Uecho.C101_all_executions",
    "Uecho.C101_recovers"
   ],
   "note": "C101_descriptions, C101_at_once, C101_any_time, C101_all_executions, C101_recovers. The case of one message at a time is C99. As in C72 to C100 the threads of a host call the controller one after the other (its mutex is held by nobody else; C101_all_executions does without), and no observer has panicked before. Messages within the receive buffer are an assumption (see C05)."
  },
  {
   "property": "C11",
   "status": "proved",
   "theorems": [
    "Uecho.C11_fromU32",
    "Uecho.C11_toU32",
    "Uecho.C11_read_after_write",
    "Uecho.C11_write_after_read"
   ],
   "note": ""
  },
  {
   "property": "C12",
   "status": "partial",
   "theorems": [
    "Uecho.C12_panics_iff",
    "Uecho.C12_no_panic_partial",
    "Uecho.C12_fails"
   ],
   "note": "Exact panic condition (more than four bytes with overflow checks); the full property is false (C12_fails)."
  },
  {
   "property": "C13",
   "status": "proved",
   "theorems": [
    "Uecho.C13_oid_layout",
    "Uecho.C13_oid_distinct"
   ],
   "note": ""
  },
  {
   "property": "C14",
   "status": "proved",
   "theorems": [
    "Uecho.C14_code_setCode",
    "Uecho.C14_code_bytes",
    "Uecho.C14_eq_iff"
   ],
   "note": ""
  },
  {
   "property": "C15",
   "status": "proved",
   "theorems": [
    "Uecho.C15_equals",
    "Uecho.C15_set_property_data",
    "Uecho.C15_set_property_byte",
    "Uecho.C15_set_property_int"
   ],
   "note": ""
  },
  {
   "property": "C16",
   "status": "proved",
   "theorems": [
    "Uecho.C16_add_property",
    "Uecho.C16_add_property_no_panic",
    "Uecho.C16_panics_below_0x80"
   ],
   "note": "C16_panics_below_0x80 records that an invalid property code can panic in a debug build."
  },
  {
   "property": "C17",
   "status": "partial",
   "theorems": [
    "Uecho.C17_property_maps_partial",
    "Uecho.C17_fails",
    "Uecho.C17_history_partial"
   ],
   "note": "Exact content of the maps; false in general: with 16 or more properties codes from 0xC0 up are lost (C17_fails)."
  },
  {
   "property": "C18",
   "status": "proved",
   "theorems": [
    "Uecho.C18_clone",
    "Uecho.C18_clone_no_panic",
    "Uecho.C18_clone_maps",
    "Uecho.C18_fails_renamed"
   ],
   "note": "C18_fails_renamed: the hypothesis that properties are filed under their own codes is needed."
  },
  {
   "property": "C19",
   "status": "proved",
   "theorems": [
    "Uecho.C19_import_result",
    "Uecho.C19_order_independent",
    "Uecho.C19_maps_order_independent",
    "Uecho.C19_no_panic"
   ],
   "note": ""
  },
  {
   "property": "C20",
   "status": "proved",
   "theorems": [
    "Uecho.C20_new_device",
    "Uecho.C20_initial_data",
    "Uecho.C20_fails_wide_code"
   ],
   "note": "C20_fails_wide_code records that a device created with a code of more than 24 bits is unusable."
  },
  {
   "property": "C21",
   "status": "proved",
   "theorems": [
    "Uecho.C21_codes_valid",
    "Uecho.C21_class_codes_distinct",
    "Uecho.C21_manufacturer_codes_distinct",
    "Uecho.C21_enum_codes_distinct",
    "Uecho.C21_builds",
    "Uecho.C21_find_object",
    "Uecho.C21_find_manufacturer",
    "Uecho.C21_super_class_properties",
    "Uecho.C21_duplicate_definitions_conflict",
    "Uecho.C21_conditional_rules_prohibited"
   ],
   "note": "All clauses proved for the whole table. Two defects beyond the stated property are recorded as theorems: some classes define a property twice with different attributes (C21_duplicate_definitions_conflict, the first definition wins) and conditional access rules become prohibited (C21_conditional_rules_prohibited)."
  },
  {
   "property": "C22",
   "status": "partial",
   "theorems": [
    "Uecho.C22_profile_partial",
    "Uecho.C22_instance_lists_partial",
    "Uecho.C22_add_never_panics",
    "Uecho.C22_fails_256_devices",
    "Uecho.C22_fails_class_list",
    "Uecho.C22_fails_code_change"
   ],
   "note": "Exact contents for every history; the full property is false from 256 devices on (C22_fails_256_devices), for the class properties (C22_fails_class_list), and when the code of an object is changed in place through find_object_mut (C22_fails_code_change)."
  },
  {
   "property": "C23",
   "status": "proved",
   "theorems": [
    "Uecho.C23_discovery"
   ],
   "note": "End to end over the wire: search datagram, receive loop, node, reply datagram, receive loop, controller."
  },
  {
   "property": "C24",
   "status": "partial",
   "theorems": [
    "Uecho.C24_listed_without_devices_partial"
   ],
   "note": "The node is listed, but the theorem proves that it is always listed without its device objects (the announcement carries 0xD5, the controller only evaluates 0xD6), so the full property is false."
  },
  {
   "property": "C25",
   "status": "proved",
   "theorems": [
    "Uecho.C25_silence"
   ],
   "note": ""
  },
  {
   "property": "C26",
   "status": "proved",
   "theorems": [
    "Uecho.C26_accept_iff",
    "Uecho.C26_accepting_handler",
    "Uecho.C26_builtin_handler_only"
   ],
   "note": "C26_builtin_handler_only records that without an application handler every non-empty request to a device object is rejected."
  },
  {
   "property": "C27",
   "status": "partial",
   "theorems": [
    "Uecho.C27_error_echo_partial",
    "Uecho.C27_write_read_fails",
    "Uecho.C27_write_read_error_undecodable"
   ],
   "note": "Proved for every request except 0x6E; for 0x6E the echo is wrong (C27_write_read_fails) and the frame is not decodable (C27_write_read_error_undecodable)."
  },
  {
   "property": "C28",
   "status": "partial",
   "theorems": [
    "Uecho.C28_header",
    "Uecho.C28_correlation_partial",
    "Uecho.C28_tid_zero_fails"
   ],
   "note": "Proved for requests with non-zero TID (C28_correlation_partial), header for all (C28_header); for TID 0 the response gets another TID (C28_tid_zero_fails)."
  },
  {
   "property": "C29",
   "status": "proved",
   "theorems": [
    "Uecho.C29_read_returns_data"
   ],
   "note": ""
  },
  {
   "property": "C30",
   "status": "proved",
   "theorems": [
    "Uecho.C30_accepted_write",
    "Uecho.C30_passive_handlers"
   ],
   "note": ""
  },
  {
   "property": "C31",
   "status": "proved",
   "theorems": [
    "Uecho.C31_error_changes_nothing",
    "Uecho.C31_all_or_nothing"
   ],
   "note": ""
  },
  {
   "property": "C32",
   "status": "proved",
   "theorems": [
    "Uecho.C32_no_disclosure",
    "Uecho.C32_no_forbidden_write",
    "Uecho.C32_builtin_handler_passive"
   ],
   "note": ""
  },
  {
   "property": "C33",
   "status": "partial",
   "theorems": [
    "Uecho.C33_handler_approval_partial",
    "Uecho.C33_write_read_bypasses_handlers",
    "Uecho.C33_received_write_read",
    "Uecho.C33_fails"
   ],
   "note": "Proved for all services except 0x6E; 0x6E bypasses the handlers (C33_write_read_bypasses_handlers, C33_fails)."
  },
  {
   "property": "C34",
   "status": "partial",
   "theorems": [
    "Uecho.C34_fails_standard",
    "Uecho.C34_remote_immutable_partial",
    "Uecho.C34_write_read_fails"
   ],
   "note": "Proved for histories without 0x6E; false with 0x6E (C34_write_read_fails; C34_fails_standard for every new node)."
  },
  {
   "property": "C35",
   "status": "proved",
   "theorems": [
    "Uecho.C35_judged_values",
    "Uecho.C35_judged_replies",
    "Uecho.C35_values",
    "Uecho.C35_replies"
   ],
   "note": "Histories of arbitrary received messages; the specification recomputes values and replies from the history alone. C35_judged_* extend the property to handlers that accept or refuse by an arbitrary rule."
  },
  {
   "property": "C36",
   "status": "proved",
   "theorems": [
    "Uecho.C36_one_routed_reply",
    "Uecho.C36_reply_transmitted"
   ],
   "note": ""
  },
  {
   "property": "C37",
   "status": "proved",
   "theorems": [
    "Uecho.C37_consecutive",
    "Uecho.C37_distinct_in_window",
    "Uecho.C37_wraps_to_zero"
   ],
   "note": "C37_wraps_to_zero records that the counter wraps to 0, a TID the library treats as unset."
  },
  {
   "property": "C38",
   "status": "proved",
   "theorems": [
    "Uecho.C38_explicit_tids",
    "Uecho.C38_counter"
   ],
   "note": ""
  },
  {
   "property": "C39",
   "status": "proved",
   "theorems": [
    "Uecho.C39_at_most_one",
    "Uecho.C39_may_answer_other_request"
   ],
   "note": "C39_may_answer_other_request records that a response to another request with the same TID is delivered."
  },
  {
   "property": "C40",
   "status": "partial",
   "theorems": [
    "Uecho.C40_delivered_partial",
    "Uecho.C40_explicit_tid_fails",
    "Uecho.C40_tid_zero_request_fails",
    "Uecho.C40_write_read_error_panics"
   ],
   "note": "Proved for posts whose TID the library chose and whose response is processed; false for explicit TIDs (C40_explicit_tid_fails), for requests with TID 0 (C40_tid_zero_request_fails) and for 0x5E answers (C40_write_read_error_panics)."
  },
  {
   "property": "C41",
   "status": "proved",
   "theorems": [
    "Uecho.C41_superseded"
   ],
   "note": ""
  },
  {
   "property": "C42",
   "status": "proved",
   "theorems": [
    "Uecho.C42_start",
    "Uecho.C42_failed_start",
    "Uecho.C42_stop",
    "Uecho.C42_start_needs_profile"
   ],
   "note": "C42_failed_start records that a start whose announcement fails returns false but leaves the node running."
  },
  {
   "property": "C43",
   "status": "proved",
   "theorems": [
    "Uecho.C43_node_start",
    "Uecho.C43_stop",
    "Uecho.C43_start",
    "Uecho.C43_all_or_nothing",
    "Uecho.C43_interfaces_are_v4"
   ],
   "note": ""
  },
  {
   "property": "C44",
   "status": "partial",
   "theorems": [
    "Uecho.C44_send",
    "Uecho.C44_notify_partial",
    "Uecho.C44_notify_not_running"
   ],
   "note": "Exact for send; for notify exact except that a notification without any server reports success (C44_notify_not_running)."
  },
  {
   "property": "C45",
   "status": "partial",
   "theorems": [
    "Uecho.C45_history",
    "Uecho.C45_calls",
    "Uecho.C45_exactly_once_partial",
    "Uecho.C45_late_observer_fails",
    "Uecho.C45_restart_fails",
    "Uecho.C45_two_devices_fails",
    "Uecho.C45_controller",
    "Uecho.C45_controller_observers"
   ],
   "note": "Exact for every history (C45_history); each observer once per message for orderly histories; false for observers registered while running (C45_late_observer_fails), repeated start (C45_restart_fails) and several devices on a node (C45_two_devices_fails)."
  },
  {
   "property": "C46",
   "status": "partial",
   "theorems": [
    "Uecho.C46_handed_partial",
    "Uecho.C46_end",
    "Uecho.C46_poison_kills_receiver"
   ],
   "note": "Proved for all event sequences without a poisonous datagram or fatal error, C46_end describes what happens at the first such event; false in general (C46_poison_kills_receiver)."
  },
  {
   "property": "C47",
   "status": "proved",
   "theorems": [
    "Uecho.C47_node_list",
    "Uecho.C47_standard_properties",
    "Uecho.C47_never_panics"
   ],
   "note": ""
  },
  {
   "property": "C48",
   "status": "partial",
   "theorems": [
    "Uecho.C48_fails",
    "Uecho.C48_stop_partial"
   ],
   "note": "The full property is false of the code: C48_fails proves that stop never changes the list of discovered nodes; C48_stop_partial is what holds."
  },
  {
   "property": "C49",
   "status": "proved",
   "theorems": [
    "Uecho.C49_send",
    "Uecho.C49_post",
    "Uecho.C49_search"
   ],
   "note": ""
  },
  {
   "property": "C50",
   "status": "partial",
   "theorems": [
    "Uecho.Locks.C50_no_deadlock_partial",
    "Uecho.Locks.C50_deadlock_lasts",
    "Uecho.Locks.C50_never_deadlocked_partial",
    "Uecho.Locks.C50_fails_handler",
    "Uecho.Locks.C50_fails_example",
    "Uecho.Locks.C50_fails_observer"
   ],
   "note": "Lock-level model of every API call, callback and receiver thread: deadlock freedom and termination for every schedule of applications whose callbacks do not call the library and which call it without holding a mutex their callbacks need; false without those rules, even for the shipped example program (C50_fails_handler, C50_fails_example, C50_fails_observer)."
  },
  {
   "property": "C51",
   "status": "proved",
   "theorems": [
    "Uecho.C51_locked_controller",
    "Uecho.C51_lost_search_result",
    "Uecho.C51_locked_node",
    "Uecho.C51_locked_messages_vanish"
   ],
   "note": "C51_lost_search_result records the consequence that a search result arriving while the application holds the controller is lost."
  },
  {
   "property": "C52",
   "status": "partial",
   "theorems": [
    "Uecho.C52_count_truncated",
    "Uecho.C52_data_truncated",
    "Uecho.C52_fails",
    "Uecho.C52_in_range_partial"
   ],
   "note": "What oversize messages turn into is described exactly; the full property is false (C52_fails)."
  },
  {
   "property": "C53",
   "status": "partial",
   "theorems": [
    "Uecho.C53_setters_partial",
    "Uecho.C53_standard_version_fails"
   ],
   "note": "False for the standard version (C53_standard_version_fails), proved for all other setters."
  },
  {
   "property": "C54",
   "status": "proved",
   "theorems": [
    "Uecho.C54_property_access",
    "Uecho.C54_read_after_write",
    "Uecho.C54_device_setters",
    "Uecho.C54_new_device_setters"
   ],
   "note": ""
  },
  {
   "property": "C55",
   "status": "partial",
   "theorems": [
    "Uecho.C55_enum_map",
    "Uecho.C55_enumsOk_new",
    "Uecho.C55_enumsOk_add",
    "Uecho.C55_clone_any_order",
    "Uecho.C55_enum_accessors_partial",
    "Uecho.C55_description_fails"
   ],
   "note": "Map behaviour and cloning proved; the description getter is wrong (C55_description_fails)."
  },
  {
   "property": "C56",
   "status": "partial",
   "theorems": [
    "Uecho.C56_reuse_partial",
    "Uecho.C56_fails"
   ],
   "note": "Header and success flag independent of the previous contents; the property lists accumulate (C56_fails)."
  },
  {
   "property": "C57",
   "status": "partial",
   "theorems": [
    "Uecho.C57_receive_panics_iff",
    "Uecho.C57_no_panic_partial",
    "Uecho.C57_receiver_partial",
    "Uecho.C57_fails_datagram",
    "Uecho.C57_fails_response",
    "Uecho.Locks.C57_poison_lasts",
    "Uecho.Locks.C57_fails_poisoned",
    "Uecho.C57_threads_partial",
    "Uecho.C57_disabled",
    "Uecho.C57_fails_threads"
   ],
   "note": "Exact panic condition of one received message (C57_receive_panics_iff) and absence of panics in all histories without 0x5E messages and poisonous datagrams; false in general (C57_fails_datagram, C57_fails_response). Request handlers are total functions in that model; C57_poison_lasts and C57_fails_poisoned (lock-level model) give the consequences of a panic. C57_threads_partial extends the absence of panics to every interleaving of the accesses of all threads; C57_fails_threads and C57_disabled: one 0x5E message with the last TID makes every later method call of the node's devices and controller crash."
  },
  {
   "property": "C58",
   "status": "partial",
   "theorems": [
    "Uecho.C58_fails",
    "Uecho.C58_other_responses_partial"
   ],
   "note": "False for read responses (C58_fails); proved for all other answers."
  },
  {
   "property": "C59",
   "status": "partial",
   "theorems": [
    "Uecho.C59_fails",
    "Uecho.C59_stop_partial"
   ],
   "note": "The full property is false: C59_fails proves that dropping any device stops the node; C59_stop_partial proves that nothing else is lost and that a restart brings all devices back."
  },
  {
   "property": "C60",
   "status": "proved",
   "theorems": [
    "Uecho.C60_no_panic",
    "Uecho.C60_fields",
    "Uecho.C60_data",
    "Uecho.C60_data_appended",
    "Uecho.C60_readers",
    "Uecho.C60_access",
    "Uecho.C60_new"
   ],
   "note": "Integer stores on more than four bytes panic in dev builds (C12); C60_no_panic assumes they are not used."
  },
  {
   "property": "C61",
   "status": "partial",
   "theorems": [
    "Uecho.C61_accessors",
    "Uecho.C61_property",
    "Uecho.C61_encoding_partial",
    "Uecho.C61_fails_for_0x5E"
   ],
   "note": "Accessors proved for all call sequences; encoding for every service except 0x5E (C61_fails_for_0x5E)."
  },
  {
   "property": "C62",
   "status": "proved",
   "theorems": [
    "Uecho.C62_display",
    "Uecho.C62_display_unambiguous",
    "Uecho.C62_service"
   ],
   "note": ""
  },
  {
   "property": "C63",
   "status": "proved",
   "theorems": [
    "Uecho.C63_interfaces",
    "Uecho.C63_start",
    "Uecho.C63_has_interface"
   ],
   "note": "Feature unix (the default); the interface list and socket outcomes are parameters."
  },
  {
   "property": "C64",
   "status": "partial",
   "theorems": [
    "Uecho.C64_call_partial",
    "Uecho.C64_refused_partial",
    "Uecho.C64_fails_write_read"
   ],
   "note": "Proved for accepted 0x61/0x62/0x6E calls and refused 0x61/0x62 calls, with an automatic TID that does not wrap to 0, requests and answers of at most 1024 bytes, and no other use of the caller's TIDs while it waits (C64_call_partial, C64_refused_partial). False for refused 0x6E calls, whose answer kills the caller's receiver thread (C64_fails_write_read)."
  },
  {
   "property": "C65",
   "status": "proved",
   "theorems": [
    "Uecho.C65_announce",
    "Uecho.C65_controller_forgets"
   ],
   "note": "C65_controller_forgets records the side effect that a controller forgets the announcing node's device objects."
  },
  {
   "property": "C66",
   "status": "partial",
   "theorems": [
    "Uecho.Memory.C66_never_destroyed",
    "Uecho.Memory.C66_keeps_running",
    "Uecho.Memory.C66_counted",
    "Uecho.Memory.C66_owner_stops_partial",
    "Uecho.Memory.C66_owner_never_destroyed"
   ],
   "note": "Proved: dropping a Controller or Device stops its node (C66_owner_stops_partial). The rest is false and proved so: a node, and any ControllerNode or DeviceNode made on it, belongs to a reference cycle and is never destroyed whatever the application drops (C66_never_destroyed, C66_owner_never_destroyed), so a started Node keeps running after its last handle is gone (C66_keeps_running). What keeps a cell alive: C66_counted."
  },
  {
   "property": "C67",
   "status": "proved",
   "theorems": [
    "Uecho.C67_app_state",
    "Uecho.C67_calls",
    "Uecho.C67_calls_history"
   ],
   "note": "C67_calls and C67_calls_history observe the calls through a recording handler that may accept or refuse anything and stands among arbitrary other handlers; as the code ignores the set/get lists when it calls handlers, a 0x6E request causes no call (see C34)."
  },
  {
   "property": "C68",
   "status": "partial",
   "theorems": [
    "Uecho.C68_switch_partial",
    "Uecho.C68_ignores_partial",
    "Uecho.C68_agrees_partial",
    "Uecho.C68_fails_reads",
    "Uecho.C68_fails_write_read",
    "Uecho.C68_fails_batch",
    "Uecho.C68_fails_start",
    "Uecho.C68_no_panic"
   ],
   "note": "Proved for single-property messages other than 0x6E (C68_switch_partial, C68_ignores_partial, C68_agrees_partial over histories) and C68_no_panic for all received messages. The full property is false: reads and 0x61 are always refused (C68_fails_reads), 0x6E changes the status without the light (C68_fails_write_read), a refused batch still switches the light (C68_fails_batch), and after start an unlit light reports on (C68_fails_start)."
  },
  {
   "property": "C69",
   "status": "partial",
   "theorems": [
    "Uecho.C69_hex",
    "Uecho.C69_verbose",
    "Uecho.C69_message_partial",
    "Uecho.C69_only",
    "Uecho.C69_sent_partial",
    "Uecho.C69_fails_write_read",
    "Uecho.C69_not_request",
    "Uecho.C69_fails_object_zero",
    "Uecho.C69_fails_panic",
    "Uecho.C69_fails_long_code"
   ],
   "note": "C69_message_partial and C69_sent_partial prove it for all complete command lines with services 0x60 to 0x63; C69_hex, C69_verbose, C69_not_request and C69_only (whatever is sent belongs to a command line of the documented shape) hold in general. The full property is false: 0x6E sends no properties at all (C69_fails_write_read), object 000000 is ignored (C69_fails_object_zero), further bytes of ESV/EPC are dropped (C69_fails_long_code), and empty ESV/EPC or long object arguments crash the tool (C69_fails_panic)."
  },
  {
   "property": "C70",
   "status": "partial",
   "theorems": [
    "Uecho.C70_search",
    "Uecho.C70_bench",
    "Uecho.C70_bench_rounds",
    "Uecho.C70_sent",
    "Uecho.C70_manufacturer_partial",
    "Uecho.C70_fails_long_manufacturer",
    "Uecho.C70_printed",
    "Uecho.C70_search_args",
    "Uecho.C70_fails_bench_args",
    "Uecho.C70_bench_args",
    "Uecho.C70_options"
   ],
   "note": "Requests are exactly the wanted ones (C70_search, C70_bench, C70_bench_rounds, C70_sent), options (C70_search_args, C70_bench_args), printing (C70_printed), manufacturer names for responses of up to four bytes (C70_manufacturer_partial). False in full: a response of five or more bytes crashes a tool built with overflow checks (C70_fails_long_manufacturer), and -n without a number crashes uechobench (C70_fails_bench_args)."
  },
  {
   "property": "C71",
   "status": "proved",
   "theorems": [
    "Uecho.C71_built",
    "Uecho.C71_eq",
    "Uecho.C71_addressed",
    "Uecho.C71_clone",
    "Uecho.C71_clone_no_panic"
   ],
   "note": "The port of the address is ignored when sending (always 3610)."
  },
  {
   "property": "C72",
   "status": "proved",
   "theorems": [
    "Uecho.C72_comes_to_rest",
    "Uecho.C72_only_responses",
    "Uecho.C72_replies_bounded"
   ],
   "note": "Between two calls of the applications. Copies of one datagram appear only where it is put out (the network duplicates and routes at that moment)."
  },
  {
   "property": "C73",
   "status": "partial",
   "theorems": [
    "Uecho.C73_listed_objects_exist_partial",
    "Uecho.C73_fails"
   ],
   "note": "Proved for applications that respect the rules of Spec.HonestOp; C73_fails proves that the property is false if an application reads property 0xD6 of a device object (controllers check only the destination object of an answer). Messages within the size limits of the frame format (C52)."
  },
  {
   "property": "C74",
   "status": "partial",
   "theorems": [
    "Uecho.C74_absent_silent_partial",
    "Uecho.C74_fails"
   ],
   "note": "Silence of nodes without the object is proved; C74_fails proves that a node that has the object, without a readable property 0xD6, answers with an error from which no controller learns anything. Searching for the node profile is C23."
  },
  {
   "property": "C75",
   "status": "proved",
   "theorems": [
    "Uecho.C75_progress",
    "Uecho.C75_discovers"
   ],
   "note": "Every host has at most 84 devices (what fits into one property, C22/C52). Reachability, honesty of applications and reliability are spelled out in Spec.Reliable, Spec.Honest. 'No observer has panicked' (hsound) rules out nodes killed by a 0x5E response (C82)."
  },
  {
   "property": "C76",
   "status": "partial",
   "theorems": [
    "Uecho.C76_no_invention",
    "Uecho.C76_answer_partial",
    "Uecho.C76_last_request_partial",
    "Uecho.C76_fails"
   ],
   "note": "False in full (C76_fails): any message that is no request and has the last transaction ID is delivered, e.g. the announcement of a node that never got the request. Proved: nothing is invented (any applications); what is an answer by its service answers a request sent before, if applications do not send answers of their own; it answers the last automatically numbered request if the numbers have not wrapped around and requests are numbered automatically."
  },
  {
   "property": "C77",
   "status": "proved",
   "theorems": [
    "Uecho.C77_silent",
    "Uecho.C77_result",
    "Uecho.C77_stop_bounded",
    "Uecho.C77_stop_progress",
    "Uecho.C77_panics_only",
    "Uecho.C77_crash_leaves_running"
   ],
   "note": "for every interleaving; the socket, thread scheduler and observers are the environment (recv_from returns after at most 500 ms, observers return or panic). C77_crash_leaves_running is the exception named in the statement"
  },
  {
   "property": "C78",
   "status": "proved",
   "theorems": [
    "Uecho.C78_order",
    "Uecho.C78_complete",
    "Uecho.C78_complete_at_end",
    "Uecho.C78_registered",
    "Uecho.C78_waits"
   ],
   "note": "for every interleaving; messages as decoded from the datagram cut to 1024 bytes; what an observer then does is C26 and following; C78_waits: registration waits for deliveries under way"
  },
  {
   "property": "C79",
   "status": "proved",
   "theorems": [
    "Uecho.C79_moment",
    "Uecho.C79_delivered",
    "Uecho.C79_read",
    "Uecho.C79_write",
    "Uecho.C79_at_most_once_fails"
   ],
   "note": "for all executions of the network model; values are reported exactly if each is at most 255 bytes long (C05) and the answer is not 0x5E (C27). C79_at_most_once_fails is the sentence about duplicates"
  },
  {
   "property": "C80",
   "status": "proved",
   "theorems": [
    "Uecho.C80_readable_unique",
    "Uecho.C80_single",
    "Uecho.C80_double",
    "Uecho.C80_no_frame",
    "Uecho.C80_truncation_undetected_fails"
   ],
   "note": "exact for all byte strings; C80_truncation_undetected_fails is the last sentence"
  },
  {
   "property": "C81",
   "status": "partial",
   "theorems": [
    "Uecho.C81_manufacturers",
    "Uecho.C81_objects",
    "Uecho.C81_added_found_partial",
    "Uecho.C81_added_manufacturer",
    "Uecho.C81_fails_instance",
    "Uecho.C81_fails_standard",
    "Uecho.C81_manufacturer_accessors"
   ],
   "note": "proved: lookups after every history of additions are exactly the first match. Partial because an added object with a non-zero instance byte is never found under any code (C81_fails_instance) and additions for a class of the standard are never found (C81_fails_standard)"
  },
  {
   "property": "C82",
   "status": "proved",
   "theorems": [
    "Uecho.C82_contained",
    "Uecho.C82_poison_kills",
    "Uecho.C82_calls",
    "Uecho.C82_survives",
    "Uecho.C82_two_datagrams",
    "Uecho.C82_dead_node",
    "Uecho.C82_threads_end",
    "Uecho.C82_thread_fails",
    "Uecho.C82_app_fails"
   ],
   "note": "C82_contained: one step; C82_survives and C82_two_datagrams: whole executions; C82_threads_end: after a fault of the second kind the other threads end at their next message; C82_dead_node: then none of the node's threads puts out anything, whatever happens; C82_thread_fails shows a fault crossing from one thread to another of the same node (so containment per thread is false); C82_poison_kills, C82_calls. The request handlers and observers of the host's own application must not panic (those of other hosts may; C82_app_fails shows that this is needed, C94 what such a panic does); fatal socket errors are not modelled at network level (see C46, C77); the calls an application makes on a node whose mutex is poisoned panic in the code (C57) and are not restricted in the model, which only adds executions."
  },
  {
   "property": "C83",
   "status": "proved",
   "theorems": [
    "Uecho.C83_linearizable",
    "Uecho.C83_read_after_write"
   ],
   "note": "C83_linearizable (one order explaining all answers and values) and C83_read_after_write (no stale reads, stated about datagrams on the wire). A request duplicated by the network can occur twice in the order (C79_at_most_once_fails)."
  },
  {
   "property": "C84",
   "status": "proved",
   "theorems": [
    "Uecho.C84_progress",
    "Uecho.C84_answered",
    "Uecho.C84_values",
    "Uecho.C84_contended_fails",
    "Uecho.C84_write_read_fails"
   ],
   "note": "The node is the first observer at both hosts (as Node::new and start register it), sockets work. C84_progress: steps always possible until rest, no infinite execution, rest reachable. C84_answered: exactly one delivery, read from a datagram of the asked host that answers the request. C84_values: service and contents of the answer and the values held afterwards. The asked host may be the caller itself (a separate invariant; tests/node_test.rs is an instance of this). Running (Spec) includes that no observer of the host has panicked before (C82). That no receiver thread finds the mutex taken is part of the statement (hfree in Spec.Reliable): C84_contended_fails is an execution, losing nothing, in which the answer arrives while the application uses the node and is never delivered. C84_write_read_fails: for 0x6E the claim is false, a refused write-read kills the caller's receiver thread."
  },
  {
   "property": "C85",
   "status": "proved",
   "theorems": [
    "Uecho.C85_session",
    "Uecho.C85_read_back"
   ],
   "note": "C85_session is the property; C85_read_back its last sentence. Duplicates of the request and of the answer within a call are covered, those that outlive their call are not (the session waits until nothing is in flight): that restriction is part of the statement. Values of the property maps 0x9D to 0x9F, which are computed on the fly, are not said to be those of the map. Running (Spec) includes that no observer of the host has panicked before (C82). 'No mutex taken' is hfree in Spec.Reliable; C84_contended_fails shows it is needed."
  },
  {
   "property": "C86",
   "status": "proved",
   "theorems": [
    "Uecho.C86_linearizable",
    "Uecho.C86_answered",
    "Uecho.C86_read_back"
   ],
   "note": "C86_linearizable is the order, C86_answered says that every call is answered, C86_read_back is the last sentence. That an application waits for the answer to its last call is part of the statement: post_message keeps one channel per node, a second call replaces it and the first is never answered (C41). With a repeating network a request can take effect more than once (C79_at_most_once_fails), also after its answer has arrived; the order then contains it several times. Services 0x61 and 0x62; property maps 0x9D to 0x9F are not said to hold the values of the map. Running (Spec) includes that no observer of the host has panicked before (C82). 'No mutex taken' is hfree in Spec.Reliable; C84_contended_fails shows it is needed."
  },
  {
   "property": "C87",
   "status": "proved",
   "theorems": [
    "Uecho.C87_parse",
    "Uecho.C87_refuse",
    "Uecho.C87_equals",
    "Uecho.C87_new"
   ],
   "note": ""
  },
  {
   "property": "C88",
   "status": "partial",
   "theorems": [
    "Uecho.C88_types",
    "Uecho.C88_database_partial",
    "Uecho.C88_device_partial",
    "Uecho.C88_fails_untyped"
   ],
   "note": "from_string, enumerated values and their types proved for the database and for new devices; some properties have the empty string as type (C88_fails_untyped)"
  },
  {
   "property": "C89",
   "status": "proved",
   "theorems": [
    "Uecho.C89_critical_sections",
    "Uecho.C89_finite",
    "Uecho.C89_linearizable",
    "Uecho.C89_exclusion",
    "Uecho.C89_poisoned",
    "Uecho.C89_progress"
   ],
   "note": "linearizability of all critical sections, refinement of the thread-level machine by the sequential host of Model/Host, refusals only for overlapping calls, progress; relies on each call holding its mutexes from its first access to its last, which is read off the code"
  },
  {
   "property": "C90",
   "status": "proved",
   "theorems": [
    "Uecho.Live.C90_sequential",
    "Uecho.Live.C90_schedule_free",
    "Uecho.Live.C90_crash",
    "Uecho.Live.C90_observer_panics"
   ],
   "note": "refinement of Model/Transport by Model/Servers for every interleaving; the sockets of the two managers and the results of all calls"
  },
  {
   "property": "C91",
   "status": "partial",
   "theorems": [
    "Uecho.C91_node",
    "Uecho.C91_lists",
    "Uecho.C91_observer",
    "Uecho.C91_served",
    "Uecho.C91_replies_fails",
    "Uecho.C91_late_fails",
    "Uecho.C91_stop_fails",
    "Uecho.C91_post_partial",
    "Uecho.C91_posts_fails",
    "Uecho.C91_no_panic_partial"
   ],
   "note": "Proved: the lists of each controller (C91_lists, C91_served), observers (C91_observer), the node's behaviour is that of a node alone (C91_node), no panics (C91_no_panic_partial), responses to posts if nobody else on the node posts or uses an automatic transaction ID (C91_post_partial). False: requests are answered once per controller and device (C91_replies_fails), another controller's post makes a controller lose its response (C91_posts_fails), stopping or dropping one stops all (C91_stop_fails), a controller made while the node is running hears nothing (C91_late_fails)."
  },
  {
   "property": "C92",
   "status": "proved",
   "theorems": [
    "Uecho.C92_init",
    "Uecho.C92_exclusive",
    "Uecho.C92_ends"
   ],
   "note": "C92_init: no panics, and everything is written after init; C92_exclusive: one logger only; C92_ends: nobody waits forever. Once and the crate log are modelled from their documentation and source (log 0.4). The application is assumed not to lower log::max_level itself. Logger::set_level cannot change what is logged: it needs an exclusive reference, and the logger in use is an immutable static."
  },
  {
   "property": "C93",
   "status": "proved",
   "theorems": [
    "Uecho.C93_levels",
    "Uecho.C93_receive_loop",
    "Uecho.C93_transparent",
    "Uecho.C93_complete",
    "Uecho.C93_every_datagram",
    "Uecho.C93_abstraction"
   ],
   "note": "C93_transparent: any two level assignments give the same behaviour; C93_complete: transmissions and deliveries are read off the log; C93_every_datagram: one line per datagram; C93_abstraction: the transport model without sockets and log, used everywhere else, is the same. Lines of one history are in the order of its steps; how lines of several threads interleave in a real log is not modelled. How std and hex print addresses and byte strings is not modelled. C93_levels: what each level shows; C93_receive_loop: the receiver loop is the one of the other transport models."
  },
  {
   "property": "C94",
   "status": "proved",
   "theorems": [
    "Uecho.C94_returns",
    "Uecho.C94_panic",
    "Uecho.C94_calm",
    "Uecho.C94_network",
    "Uecho.C94_dead",
    "Uecho.C94_dead_after",
    "Uecho.C94_poison",
    "Uecho.C94_recover",
    "Uecho.C94_contained",
    "Uecho.C94_shared_fails"
   ],
   "note": "C94_panic: what is left after a panic and which three reasons there are; C94_returns and C94_calm: without a panic the node behaves as in Model/Node, to which all other claims apply; C94_dead, C94_dead_after, C94_recover, C94_contained: the nodes of a process; C94_network: the step of the network model for a panicking handler; C94_shared_fails: the restriction to nodes that share no handler object is needed (one panic ends both nodes). The state the application keeps behind a handler may be half changed; a panicking call of the application leaves its node in an arbitrary state in this model."
  },
  {
   "property": "C95",
   "status": "proved",
   "theorems": [
    "Uecho.Live.C95_owned",
    "Uecho.Live.C95_closed",
    "Uecho.Live.C95_bounded",
    "Uecho.Live.C95_stop_again",
    "Uecho.Live.C95_drop",
    "Uecho.Live.C95_stop_twice",
    "Uecho.Live.C95_drop_fails"
   ],
   "note": "C95_owned (open iff owned, exact reference counts), C95_closed, C95_bounded, C95_stop_again (at most one panic per panicked thread), C95_stop_twice (a concrete run), C95_drop (returns/panics/aborts by the number of panicked threads), C95_drop_fails (concrete aborts). That a descriptor is closed with its last reference, and that a destructor that panics during unwinding aborts, are semantics of Rust and its std. Through a LocalNode or Controller a panicking stop also poisons the node's mutex (C57), and nodes are never destroyed (C66), so the destructor matters to users of the public transport module."
  },
  {
   "property": "C96",
   "status": "proved",
   "theorems": [
    "Uecho.C96_in_time",
    "Uecho.C96_stop_default",
    "Uecho.C96_progress",
    "Uecho.C96_bind",
    "Uecho.C96_any_run",
    "Uecho.C96_tight"
   ],
   "note": "C96_in_time (the bound for every start and stop), C96_stop_default (500 ms per server and one call of each observer when the rest is negligible), C96_progress (never stuck), C96_tight (the bound is reached), C96_any_run (the clock excludes no execution), C96_bind (attempts and sleeps). The limits for single steps (read timeout kept by the operating system, observers that return, fair scheduling) are parameters of the model. add_observer waits for a mutex, for which std promises no fairness, and is left out; what it does is in C77, C78."
  },
  {
   "property": "C97",
   "status": "proved",
   "theorems": [
    "Uecho.C97_carried_out",
    "Uecho.C97_values",
    "Uecho.C97_light"
   ],
   "note": "C97_carried_out (the effect on the host is that of processing the request, once or more), C97_values (the values afterwards), C97_light (the example light obeys). That the network comes to rest is C84_progress. Reliable delivery, working sockets, messages within the receive buffer and free mutexes are assumptions (see C05, C13, C52 for what happens without them)."
  },
  {
   "property": "C98",
   "status": "proved",
   "theorems": [
    "Uecho.C98_unharmed",
    "Uecho.C98_told"
   ],
   "note": "C98_told, C98_unharmed. That the network comes to rest is C84_progress. Controllers among the hosts may update their list of remote nodes (C99 says how); no observer has panicked before. Messages within the receive buffer are an assumption (see C05)."
  },
  {
   "property": "C99",
   "status": "proved",
   "theorems": [
    "Uecho.C99_known",
    "Uecho.C99_others",
    "Uecho.C99_announcement",
    "Uecho.C99_instance_list",
    "Uecho.C99_series"
   ],
   "note": "C99_known, C99_instance_list, C99_series, C99_others, C99_announcement. That the network comes to rest is C84_progress, that lists have one entry per address C47; no observer has panicked before. C98 says what else such a message does (nothing)."
  }
 ]
}
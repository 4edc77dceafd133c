{
 "C01": [
  "partial",
  "Proved for every service except 0x5E; C01_fails_for_0x5E proves that for 0x5E decoding an encoded message always panics, so the full property is false of the code."
 ],
 "C02": [
  "partial",
  "Proved for every service except 0x5E, for which the encoder drops both lists (C02_fails_for_0x5E); C02_nothing_lost shows that the decoded fields still determine the consumed bytes for all services."
 ],
 "C03": [
  "partial",
  "The exact set of panicking datagrams is characterised (C03_panic_characterisation); the full property is false (C03_fails)."
 ],
 "C04": [
  "proved",
  ""
 ],
 "C05": [
  "proved",
  "C05_other_header_rejected: a frame with another header is rejected as a whole."
 ],
 "C06": [
  "proved",
  ""
 ],
 "C07": [
  "partial",
  "Holds except for service 0x5E (panics, C07_clone_panics_for_0x5E), for the sender address, which is always lost (C07_clone_loses_sender), and for a message with a foreign header, of which nothing is copied (C07_clone_fails_other_header)."
 ],
 "C08": [
  "partial",
  "Exact characterisation; the full property is false because the set/get lists are ignored (C08_fails)."
 ],
 "C09": [
  "proved",
  ""
 ],
 "C10": [
  "proved",
  ""
 ],
 "C11": [
  "proved",
  ""
 ],
 "C12": [
  "partial",
  "Exact panic condition (more than four bytes with overflow checks); the full property is false (C12_fails)."
 ],
 "C13": [
  "proved",
  ""
 ],
 "C14": [
  "proved",
  ""
 ],
 "C15": [
  "proved",
  ""
 ],
 "C16": [
  "proved",
  "C16_panics_below_0x80 records that an invalid property code can panic in a debug build."
 ],
 "C17": [
  "partial",
  "Exact content of the maps; false in general: with 16 or more properties codes from 0xC0 up are lost (C17_fails)."
 ],
 "C18": [
  "proved",
  "C18_fails_renamed: the hypothesis that properties are filed under their own codes is needed."
 ],
 "C19": [
  "proved",
  ""
 ],
 "C21": [
  "proved",
  "All clauses proved for the whole table. Two defects beyond the stated property are recorded as theorems: some classes define a property twice with different attributes (C21_duplicate_definitions_conflict, the first definition wins) and conditional access rules become prohibited (C21_conditional_rules_prohibited)."
 ],
 "C25": [
  "proved",
  ""
 ],
 "C26": [
  "proved",
  "C26_builtin_handler_only records that without an application handler every non-empty request to a device object is rejected."
 ],
 "C27": [
  "partial",
  "Proved for every request except 0x6E; for 0x6E the echo is wrong (C27_write_read_fails) and the frame is not decodable (C27_write_read_error_undecodable)."
 ],
 "C28": [
  "partial",
  "Proved for requests with non-zero TID (C28_correlation_partial), header for all (C28_header); for TID 0 the response gets another TID (C28_tid_zero_fails)."
 ],
 "C29": [
  "proved",
  ""
 ],
 "C30": [
  "proved",
  ""
 ],
 "C31": [
  "proved",
  ""
 ],
 "C32": [
  "proved",
  ""
 ],
 "C33": [
  "partial",
  "Proved for all services except 0x6E; 0x6E bypasses the handlers (C33_write_read_bypasses_handlers, C33_fails)."
 ],
 "C34": [
  "partial",
  "Proved for histories without 0x6E; false with 0x6E (C34_write_read_fails; C34_fails_standard for every new node)."
 ],
 "C35": [
  "proved",
  "Histories of arbitrary received messages; the specification recomputes values and replies from the history alone. C35_judged_* extend the property to handlers that accept or refuse by an arbitrary rule."
 ],
 "C36": [
  "proved",
  ""
 ],
 "C37": [
  "proved",
  "C37_wraps_to_zero records that the counter wraps to 0, a TID the library treats as unset."
 ],
 "C38": [
  "proved",
  ""
 ],
 "C39": [
  "proved",
  "C39_may_answer_other_request records that a response to another request with the same TID is delivered."
 ],
 "C40": [
  "partial",
  "Proved for posts whose TID the library chose and whose response is processed; false for explicit TIDs (C40_explicit_tid_fails), for requests with TID 0 (C40_tid_zero_request_fails) and for 0x5E answers (C40_write_read_error_panics)."
 ],
 "C41": [
  "proved",
  ""
 ],
 "C42": [
  "proved",
  "C42_failed_start records that a start whose announcement fails returns false but leaves the node running."
 ],
 "C43": [
  "proved",
  ""
 ],
 "C44": [
  "partial",
  "Exact for send; for notify exact except that a notification without any server reports success (C44_notify_not_running)."
 ],
 "C46": [
  "partial",
  "Proved for all event sequences without a poisonous datagram or fatal error, C46_end describes what happens at the first such event; false in general (C46_poison_kills_receiver)."
 ],
 "C51": [
  "proved",
  "C51_lost_search_result records the consequence that a search result arriving while the application holds the controller is lost."
 ],
 "C52": [
  "partial",
  "What oversize messages turn into is described exactly; the full property is false (C52_fails)."
 ],
 "C53": [
  "partial",
  "False for the standard version (C53_standard_version_fails), proved for all other setters."
 ],
 "C55": [
  "partial",
  "Map behaviour and cloning proved; the description getter is wrong (C55_description_fails)."
 ],
 "C56": [
  "partial",
  "Header and success flag independent of the previous contents; the property lists accumulate (C56_fails)."
 ],
 "C20": [
  "proved",
  "C20_fails_wide_code records that a device created with a code of more than 24 bits is unusable."
 ],
 "C22": [
  "partial",
  "Exact contents for every history; the full property is false from 256 devices on (C22_fails_256_devices), for the class properties (C22_fails_class_list), and when the code of an object is changed in place through find_object_mut (C22_fails_code_change)."
 ],
 "C54": [
  "proved",
  ""
 ],
 "C47": [
  "proved",
  ""
 ],
 "C48": [
  "partial",
  "The full property is false of the code: C48_fails proves that stop never changes the list of discovered nodes; C48_stop_partial is what holds."
 ],
 "C49": [
  "proved",
  ""
 ],
 "C23": [
  "proved",
  "End to end over the wire: search datagram, receive loop, node, reply datagram, receive loop, controller."
 ],
 "C24": [
  "partial",
  "The node is listed, but the theorem proves that it is always listed without its device objects (the announcement carries 0xD5, the controller only evaluates 0xD6), so the full property is false."
 ],
 "C58": [
  "partial",
  "False for read responses (C58_fails); proved for all other answers."
 ],
 "C59": [
  "partial",
  "The full property is false: C59_fails proves that dropping any device stops the node; C59_stop_partial proves that nothing else is lost and that a restart brings all devices back."
 ],
 "C45": [
  "partial",
  "Exact for every history (C45_history); each observer once per message for orderly histories; false for observers registered while running (C45_late_observer_fails), repeated start (C45_restart_fails) and several devices on a node (C45_two_devices_fails)."
 ],
 "C57": [
  "partial",
  "Exact panic condition of one received message (C57_receive_panics_iff) and absence of panics in all histories without 0x5E messages and poisonous datagrams; false in general (C57_fails_datagram, C57_fails_response). Request handlers are total functions in that model; C57_poison_lasts and C57_fails_poisoned (lock-level model) give the consequences of a panic. C57_threads_partial extends the absence of panics to every interleaving of the accesses of all threads; C57_fails_threads and C57_disabled: one 0x5E message with the last TID makes every later method call of the node's devices and controller crash."
 ],
 "C50": [
  "partial",
  "Lock-level model of every API call, callback and receiver thread: deadlock freedom and termination for every schedule of applications whose callbacks do not call the library and which call it without holding a mutex their callbacks need; false without those rules, even for the shipped example program (C50_fails_handler, C50_fails_example, C50_fails_observer)."
 ],
 "C60": [
  "proved",
  "Integer stores on more than four bytes panic in dev builds (C12); C60_no_panic assumes they are not used."
 ],
 "C61": [
  "partial",
  "Accessors proved for all call sequences; encoding for every service except 0x5E (C61_fails_for_0x5E)."
 ],
 "C62": [
  "proved",
  ""
 ],
 "C63": [
  "proved",
  "Feature unix (the default); the interface list and socket outcomes are parameters."
 ],
 "C64": [
  "partial",
  "Proved for accepted 0x61/0x62/0x6E calls and refused 0x61/0x62 calls, with an automatic TID that does not wrap to 0, requests and answers of at most 1024 bytes, and no other use of the caller's TIDs while it waits (C64_call_partial, C64_refused_partial). False for refused 0x6E calls, whose answer kills the caller's receiver thread (C64_fails_write_read)."
 ],
 "C65": [
  "proved",
  "C65_controller_forgets records the side effect that a controller forgets the announcing node's device objects."
 ],
 "C66": [
  "partial",
  "Proved: dropping a Controller or Device stops its node (C66_owner_stops_partial). The rest is false and proved so: a node, and any ControllerNode or DeviceNode made on it, belongs to a reference cycle and is never destroyed whatever the application drops (C66_never_destroyed, C66_owner_never_destroyed), so a started Node keeps running after its last handle is gone (C66_keeps_running). What keeps a cell alive: C66_counted."
 ],
 "C67": [
  "proved",
  "C67_calls and C67_calls_history observe the calls through a recording handler that may accept or refuse anything and stands among arbitrary other handlers; as the code ignores the set/get lists when it calls handlers, a 0x6E request causes no call (see C34)."
 ],
 "C68": [
  "partial",
  "Proved for single-property messages other than 0x6E (C68_switch_partial, C68_ignores_partial, C68_agrees_partial over histories) and C68_no_panic for all received messages. The full property is false: reads and 0x61 are always refused (C68_fails_reads), 0x6E changes the status without the light (C68_fails_write_read), a refused batch still switches the light (C68_fails_batch), and after start an unlit light reports on (C68_fails_start)."
 ],
 "C69": [
  "partial",
  "C69_message_partial and C69_sent_partial prove it for all complete command lines with services 0x60 to 0x63; C69_hex, C69_verbose, C69_not_request and C69_only (whatever is sent belongs to a command line of the documented shape) hold in general. The full property is false: 0x6E sends no properties at all (C69_fails_write_read), object 000000 is ignored (C69_fails_object_zero), further bytes of ESV/EPC are dropped (C69_fails_long_code), and empty ESV/EPC or long object arguments crash the tool (C69_fails_panic)."
 ],
 "C70": [
  "partial",
  "Requests are exactly the wanted ones (C70_search, C70_bench, C70_bench_rounds, C70_sent), options (C70_search_args, C70_bench_args), printing (C70_printed), manufacturer names for responses of up to four bytes (C70_manufacturer_partial). False in full: a response of five or more bytes crashes a tool built with overflow checks (C70_fails_long_manufacturer), and -n without a number crashes uechobench (C70_fails_bench_args)."
 ],
 "C71": [
  "proved",
  "The port of the address is ignored when sending (always 3610)."
 ],
 "C72": [
  "proved",
  "Between two calls of the applications. Copies of one datagram appear only where it is put out (the network duplicates and routes at that moment)."
 ],
 "C73": [
  "partial",
  "Proved for applications that respect the rules of Spec.HonestOp; C73_fails proves that the property is false if an application reads property 0xD6 of a device object (controllers check only the destination object of an answer). Messages within the size limits of the frame format (C52)."
 ],
 "C74": [
  "partial",
  "Silence of nodes without the object is proved; C74_fails proves that a node that has the object, without a readable property 0xD6, answers with an error from which no controller learns anything. Searching for the node profile is C23."
 ],
 "C75": [
  "proved",
  "Every host has at most 84 devices (what fits into one property, C22/C52). Reachability, honesty of applications and reliability are spelled out in Spec.Reliable, Spec.Honest. 'No observer has panicked' (hsound) rules out nodes killed by a 0x5E response (C82)."
 ],
 "C76": [
  "partial",
  "False in full (C76_fails): any message that is no request and has the last transaction ID is delivered, e.g. the announcement of a node that never got the request. Proved: nothing is invented (any applications); what is an answer by its service answers a request sent before, if applications do not send answers of their own; it answers the last automatically numbered request if the numbers have not wrapped around and requests are numbered automatically."
 ],
 "C77": [
  "proved",
  "for every interleaving; the socket, thread scheduler and observers are the environment (recv_from returns after at most 500 ms, observers return or panic). C77_crash_leaves_running is the exception named in the statement"
 ],
 "C78": [
  "proved",
  "for every interleaving; messages as decoded from the datagram cut to 1024 bytes; what an observer then does is C26 and following; C78_waits: registration waits for deliveries under way"
 ],
 "C79": [
  "proved",
  "for all executions of the network model; values are reported exactly if each is at most 255 bytes long (C05) and the answer is not 0x5E (C27). C79_at_most_once_fails is the sentence about duplicates"
 ],
 "C80": [
  "proved",
  "exact for all byte strings; C80_truncation_undetected_fails is the last sentence"
 ],
 "C81": [
  "partial",
  "proved: lookups after every history of additions are exactly the first match. Partial because an added object with a non-zero instance byte is never found under any code (C81_fails_instance) and additions for a class of the standard are never found (C81_fails_standard)"
 ],
 "C82": [
  "proved",
  "C82_contained: one step; C82_survives and C82_two_datagrams: whole executions; C82_threads_end: after a fault of the second kind the other threads end at their next message; C82_dead_node: then none of the node's threads puts out anything, whatever happens; C82_thread_fails shows a fault crossing from one thread to another of the same node (so containment per thread is false); C82_poison_kills, C82_calls. The request handlers and observers of the host's own application must not panic (those of other hosts may; C82_app_fails shows that this is needed, C94 what such a panic does); fatal socket errors are not modelled at network level (see C46, C77); the calls an application makes on a node whose mutex is poisoned panic in the code (C57) and are not restricted in the model, which only adds executions."
 ],
 "C83": [
  "proved",
  "C83_linearizable (one order explaining all answers and values) and C83_read_after_write (no stale reads, stated about datagrams on the wire). A request duplicated by the network can occur twice in the order (C79_at_most_once_fails)."
 ],
 "C84": [
  "proved",
  "The node is the first observer at both hosts (as Node::new and start register it), sockets work. C84_progress: steps always possible until rest, no infinite execution, rest reachable. C84_answered: exactly one delivery, read from a datagram of the asked host that answers the request. C84_values: service and contents of the answer and the values held afterwards. The asked host may be the caller itself (a separate invariant; tests/node_test.rs is an instance of this). Running (Spec) includes that no observer of the host has panicked before (C82). That no receiver thread finds the mutex taken is part of the statement (hfree in Spec.Reliable): C84_contended_fails is an execution, losing nothing, in which the answer arrives while the application uses the node and is never delivered. C84_write_read_fails: for 0x6E the claim is false, a refused write-read kills the caller's receiver thread."
 ],
 "C85": [
  "proved",
  "C85_session is the property; C85_read_back its last sentence. Duplicates of the request and of the answer within a call are covered, those that outlive their call are not (the session waits until nothing is in flight): that restriction is part of the statement. Values of the property maps 0x9D to 0x9F, which are computed on the fly, are not said to be those of the map. Running (Spec) includes that no observer of the host has panicked before (C82). 'No mutex taken' is hfree in Spec.Reliable; C84_contended_fails shows it is needed."
 ],
 "C86": [
  "proved",
  "C86_linearizable is the order, C86_answered says that every call is answered, C86_read_back is the last sentence. That an application waits for the answer to its last call is part of the statement: post_message keeps one channel per node, a second call replaces it and the first is never answered (C41). With a repeating network a request can take effect more than once (C79_at_most_once_fails), also after its answer has arrived; the order then contains it several times. Services 0x61 and 0x62; property maps 0x9D to 0x9F are not said to hold the values of the map. Running (Spec) includes that no observer of the host has panicked before (C82). 'No mutex taken' is hfree in Spec.Reliable; C84_contended_fails shows it is needed."
 ],
 "C87": [
  "proved",
  ""
 ],
 "C88": [
  "partial",
  "from_string, enumerated values and their types proved for the database and for new devices; some properties have the empty string as type (C88_fails_untyped)"
 ],
 "C89": [
  "proved",
  "linearizability of all critical sections, refinement of the thread-level machine by the sequential host of Model/Host, refusals only for overlapping calls, progress; relies on each call holding its mutexes from its first access to its last, which is read off the code"
 ],
 "C90": [
  "proved",
  "refinement of Model/Transport by Model/Servers for every interleaving; the sockets of the two managers and the results of all calls"
 ],
 "C91": [
  "partial",
  "Proved: the lists of each controller (C91_lists, C91_served), observers (C91_observer), the node's behaviour is that of a node alone (C91_node), no panics (C91_no_panic_partial), responses to posts if nobody else on the node posts or uses an automatic transaction ID (C91_post_partial). False: requests are answered once per controller and device (C91_replies_fails), another controller's post makes a controller lose its response (C91_posts_fails), stopping or dropping one stops all (C91_stop_fails), a controller made while the node is running hears nothing (C91_late_fails)."
 ],
 "C92": [
  "proved",
  "C92_init: no panics, and everything is written after init; C92_exclusive: one logger only; C92_ends: nobody waits forever. Once and the crate log are modelled from their documentation and source (log 0.4). The application is assumed not to lower log::max_level itself. Logger::set_level cannot change what is logged: it needs an exclusive reference, and the logger in use is an immutable static."
 ],
 "C93": [
  "proved",
  "C93_transparent: any two level assignments give the same behaviour; C93_complete: transmissions and deliveries are read off the log; C93_every_datagram: one line per datagram; C93_abstraction: the transport model without sockets and log, used everywhere else, is the same. Lines of one history are in the order of its steps; how lines of several threads interleave in a real log is not modelled. How std and hex print addresses and byte strings is not modelled. C93_levels: what each level shows; C93_receive_loop: the receiver loop is the one of the other transport models."
 ],
 "C94": [
  "proved",
  "C94_panic: what is left after a panic and which three reasons there are; C94_returns and C94_calm: without a panic the node behaves as in Model/Node, to which all other claims apply; C94_dead, C94_dead_after, C94_recover, C94_contained: the nodes of a process; C94_network: the step of the network model for a panicking handler; C94_shared_fails: the restriction to nodes that share no handler object is needed (one panic ends both nodes). The state the application keeps behind a handler may be half changed; a panicking call of the application leaves its node in an arbitrary state in this model."
 ],
 "C95": [
  "proved",
  "C95_owned (open iff owned, exact reference counts), C95_closed, C95_bounded, C95_stop_again (at most one panic per panicked thread), C95_stop_twice (a concrete run), C95_drop (returns/panics/aborts by the number of panicked threads), C95_drop_fails (concrete aborts). That a descriptor is closed with its last reference, and that a destructor that panics during unwinding aborts, are semantics of Rust and its std. Through a LocalNode or Controller a panicking stop also poisons the node's mutex (C57), and nodes are never destroyed (C66), so the destructor matters to users of the public transport module."
 ],
 "C96": [
  "proved",
  "C96_in_time (the bound for every start and stop), C96_stop_default (500 ms per server and one call of each observer when the rest is negligible), C96_progress (never stuck), C96_tight (the bound is reached), C96_any_run (the clock excludes no execution), C96_bind (attempts and sleeps). The limits for single steps (read timeout kept by the operating system, observers that return, fair scheduling) are parameters of the model. add_observer waits for a mutex, for which std promises no fairness, and is left out; what it does is in C77, C78."
 ],
 "C97": [
  "proved",
  "C97_carried_out (the effect on the host is that of processing the request, once or more), C97_values (the values afterwards), C97_light (the example light obeys). That the network comes to rest is C84_progress. Reliable delivery, working sockets, messages within the receive buffer and free mutexes are assumptions (see C05, C13, C52 for what happens without them)."
 ],
 "C98": [
  "proved",
  "C98_told, C98_unharmed. That the network comes to rest is C84_progress. Controllers among the hosts may update their list of remote nodes (C99 says how); no observer has panicked before. Messages within the receive buffer are an assumption (see C05)."
 ],
 "C99": [
  "proved",
  "C99_known, C99_instance_list, C99_series, C99_others, C99_announcement. That the network comes to rest is C84_progress, that lists have one entry per address C47; no observer has panicked before. C98 says what else such a message does (nothing)."
 ],
 "C100": [
  "proved",
  "C100_chatter, C100_harmless, C100_all_executions. The case of one message at a time is C98. That the network comes to rest when nobody sends any more is C84_progress; no observer has panicked before. Messages within the receive buffer are an assumption (see C05)."
 ],
 "C101": [
  "proved",
  "C101_descriptions, C101_at_once, C101_any_time, C101_all_executions, C101_recovers. The case of one message at a time is C99. As in C72 to C100 the threads of a host call the controller one after the other (its mutex is held by nobody else; C101_all_executions does without), and no observer has panicked before. Messages within the receive buffer are an assumption (see C05)."
 ]
}
# Formal model of cybergarage/uecho-rs in Lean 4 — design

## Layout

* `lean/Verif/Model/*` — executable model of the Rust code, one Lean definition per Rust function, each citing `file:lines`.
* `lean/Verif/Spec/*` — small specifications written from the English properties / the ECHONET Lite frame format, not from the code.
* `lean/Verif/Lemmas/*` — helper lemmas.
* `lean/Verif/Props/*` — the property theorems (the ones named in MANIFEST.json) and, next to each, non-vacuity `example`s.
* `lean/Verif/Instances/*` — further non-vacuity: theorems with hypotheses applied to concrete objects, nodes, controllers and histories, with every hypothesis discharged.

## Modelling conventions

* A Rust panic is the value `Res.panic`; every function that can panic returns `Res α`.
* `Build.overflowChecks` models cargo's debug/release profiles: arithmetic overflow and over-wide shifts panic when it is
  `true` and wrap (shift amounts are masked) when it is `false`. Theorems quantify over it unless they say otherwise.
* `&mut self` methods return the new value. `u8/u16/u32` are `UInt8/UInt16/UInt32`; `usize` lengths are `Nat`.
* A `HashMap` is a partial function `key → Option value`; its iteration order is an *arbitrary* enumeration supplied by an
  oracle indexed by the call path, so every theorem about a function that iterates a hash map is quantified over all orders
  at every iteration (a superset of what the Rust hash map can do).
* OS behaviour (interface list, bind/send results, received datagrams, `try_lock` results) is a parameter; theorems quantify over it.
* User request handlers are arbitrary functions over an arbitrary application state; they may modify the object copy they get.

## Per-property plan

| id | model | proof |
|----|-------|-------|
| C01 | `Message.bytes`, `Message.parse` (index/offset based, as in Rust) | parser lemma: parsing `enc ps ++ rest` at an offset; induction on the list. Excludes ESV 0x5E, for which the claim is false (negation proved) |
| C02 | same | soundness lemma of the parser: success implies input = header ++ enc ++ rest |
| C03 | same, panics explicit | exact characterisation of the panicking inputs; negation witness (a truncated write-read frame) |
| C04 | same | soundness + completeness against the grammar in `Spec/Wire` |
| C05 | same | prefix argument on the grammar |
| C06 | same | from the grammar being prefix-free |
| C07 | `Message.clone` | C01; negation for 0x5E (panics) and for the sender address |
| C08 | `Message.equals` | list induction; negation for write-read messages |
| C09 | setters/getters | bit arithmetic on UInt16/UInt32 via `toNat` |
| C10 | `ESV` | exhaustive over the 256 bytes / 17 services (whole domain), lifted |
| C11,C12 | `Bytes.fromU32/toU32` | induction on the loop; lengths 0..4 then `omega`; negation for length 5 |
| C13 | `OID.new` | computation with symbolic UUID |
| C14 | `Object.code` … | bit arithmetic |
| C15,C16,C18,C19,C20 | `Object`, oracle-ordered hash map | pointwise reasoning on the partial function, induction over the iteration list |
| C17 | `toPropertyMapBytes` | induction over the code list; exact for Format 1 and for codes < 0xC0 in Format 2; negation above |
| C21 | generated table | kernel evaluation of the *whole* table + lifting lemmas |
| C22 | `Node.addObject`, `NodeProfile.update` | invariant over op lists |
| C23 | composition | C01 + C22 + C29 + `NodeProfileMessage.parse` |
| C24 | composition | negation proved; what does hold (node listed with its profile) as `_partial` |
| C25–C33 | `Node.messageReceived` | case analysis against the decision table in `Spec/Access` |
| C34,C35 | message histories | induction over the history |
| C36,C38,C49 | node effects log | case analysis |
| C37 | `nextTid` | iterate = addition modulo 65536 |
| C39–C41 | node + channels history | invariant over event lists |
| C42 | `start/stop` | pointwise |
| C43,C44 | transport manager with bind/send outcomes as parameters | list induction |
| C45,C46 | receive loop | list induction; negation for repeated start |
| C47,C48 | controller | invariant over message lists; negation for C48 |
| C50 | lock skeleton as a transition system | invariant/lock order; negation for the documented handler pattern |
| C51 | observer with failed try_lock | by definition of the step, stated over the whole system state |
| C52 | encoder | negation, and exact description of the damage |
| C53–C55 | setters/getters | pointwise |
| C56 | parser on a non-empty message | negation + what holds |
| C57 | system step; lock-level model for poisoning; thread-level model of C89 | panic-freedom under the exact condition from C03/C07, carried over to all interleavings by C89; negation witnesses |
| C58 | controller fed with answers | case analysis of the profile message test; negation for read responses |
| C59 | `Device::drop` | pointwise; negation (the node stops) and what survives |
| C60 | `Property` setters/getters | pointwise, induction over call lists |
| C61 | builder calls on `Message` | induction over the call list against a specification computed from the list |
| C62 | `fmt` of messages | induction; the hexadecimal digits are inverted |
| C63 | `get_all_interfaces`, `has_interface` | induction over the interface list |
| C64 | caller node + callee node + wire | composition of C26–C33, C36, C39, C40 and the codec |
| C65 | announcing node + observing node + controller | composition, as C64 |
| C66 | reference-counted heap of the objects an application can make | invariant over all sequences of creations, clones, assignments and drops |
| C67 | call log of request handlers | refinement of `message_received` with a log; induction over the property lists |
| C68 | `examples/monolight` | invariant over histories; negations |
| C69 | `bin/uechopost` | induction over the argument list against a grammar of command lines |
| C70 | `bin/uechosearch`, `bin/uechobench` | composition with C47 (discovered nodes) and C49 (posting) |
| C71 | remote nodes built by hand (`RemoteNode`) | list induction over calls; clone by C18; addressing from C49 |
| C72 | any number of hosts, their receiver threads and the datagrams between them (`Model/Network`) | lexicographic measure decreasing with every internal step; invariant for the number of replies |
| C73 | the networks of C72, with calls of the applications (`Net.Api`), from new nodes | invariant: everything known, under way or being processed is true of its sender; object codes only grow |
| C74 | `search_object` on the wire, a node, the controller's treatment of the answer | composition of C49, C25/C26 and C58 |
| C75 | the networks of C73, reliable executions (`Spec.Reliable`) | termination from C72; progress by construction of a step; invariant: the search, the answer or the entry is always somewhere |
| C76 | executions of networks with their trace (`Spec.Traced`) | invariant over the trace: every datagram on its way and every message in a thread was sent before, every answer has its request before it, TIDs count the numbered messages |
| C77 | `Model/Servers.lean`: `start`, `stop`, `add_observer` as sequences of steps, one thread per server with program counter, stop flag, join handle, poisonable notifier | invariant over all reachable states: every live thread belongs to a listed server and, during a stop, its join is still ahead; measure for the bound |
| C78 | the same | history invariant per server relating socket events, notifications and calls to the program counter; registration invariant |
| C79 | the network of C73 (`Model/Network.lean`), with the trace of C76; `Spec/Atomic.lean`: one step of an execution, and what it means to serve a request | every effect belongs to one step of the execution (induction over the trace); invariant: properties stay filed under their codes; then request processing (C26–C30) and unambiguous decoding (C06) |
| C80 | `Message.fromBytes` (`Model/Wire.lean`); `Spec/FromBytes.lean`: the readable front of a byte string | induction over the announced number of properties; existence and uniqueness of the readable front |
| C81 | `Database.addManufacture/addObject/findManufacture/findObject`, histories of additions | closed form of the database after a history by induction over the calls; first-match characterisation of `find?`; byte arithmetic for the class mask |
| C82 | `Net.Internal` (with poisoned observers: `die` and `crash` poison, `infected` spreads), `Net.Api`, `Host.killThread`, `Host.invoke`, all node calls | per-step lemmas (which thread each step can end, which observer it can poison), invariant that busy threads work on received messages and objects stay valid, induction over executions; C57 characterises panics |
| C83 | network of hosts, log of everything put out and of local sets | induction over executions with an invariant that builds the order of accesses; every step of the host is one access (`judged_step`, `judged_reply`); corollary by position of accesses in the order |
| C84 | reliable steps of the network of hosts (`Reliable`: nothing lost, working sockets, mutexes free) with right routing, started by `Node::post_message` or `Controller::post_message` | invariant over all reliable executions: the channel is filled by the first answer, or no answer was delivered and the request or an answer is still on the way at a running thread; termination by the measure of C75; contents by C83 (all accesses are copies of one request, and a repeated write changes nothing) |
| C85 | sessions of posted requests on the network of C84, and local sets | invariant over the session; each call by C84 (which rests on C83) and a frame invariant for everything else |
| C86 | the network of C84, any number of calls under way at the same time | invariant relating calls, datagrams, busy threads and channels to the order of C83 |
| C87 | `Property::parse`, `equals`, `new` and the setters | closed form of parse by induction over the copy loop |
| C88 | `PropertyType`, `from_string`, on top of the table and `Device.new` | `from_string` shown to be the lookup in a separate word list; one kernel evaluation over the whole table gives types, sizes and value ranges; transferred to every looked-up object by C21 and every device by C20, the round trip by C11/C60. False for untyped properties: `C88_fails_untyped` |
| C89 | `Model/Threads`: calls as programs of indivisible accesses, `std::sync::Mutex` with `try_lock` and poisoning, any interleaving of any number of threads; the calls of `Device`, `Controller` and the two observers with the mutex each holds | invariant relating every reachable state to a sequential execution of the calls that have taken effect (the linearization point is the release); then each sequential call is a list of steps of `Model/Host` |
| C90 | `Model/Servers` (threads) against `Model/Transport` (single steps) | refinement: the remaining steps of a call, executed at once on the state without its threads, always give what the single-step call gives; receiver threads do not change that state |
| C91 | `Model/Shared`: one node with any number of controllers, devices and observers, each an observer object with its own state | projection of every history on the node (`C91_node`, to which the theorems on node histories apply) and on each controller (invariant of C47); counts of registrations by induction over the objects made |
| C92 | `Logger::init`, `std::sync::Once`, `log::set_logger` and the `log` macros as steps of interleaving threads | invariant over all executions (one thread at most in the closure; what the states of `Once` and of the crate imply); termination by the distance of each thread from the end of its call |
| C93 | the transport with `UdpSocket`s, log macros whose arguments are evaluated if enabled, and the lines logged | simulation with the transport model without sockets and log: each server is bound to its address |
| C94 | `Model/Panics`: `message_received` with handler objects that may panic, mutexes poisoned, several nodes of a process sharing handlers | refinement of `Node.observe` when nothing panics; characterisation of panics by induction over handlers and properties; induction over histories of a process; negation for shared handlers |
| C95 | reference counts of the sockets added to the executions of C77; destructor of a manager as a function of which threads have panicked | invariant: the count is (in a vector) + (thread alive); with C77's invariants on the vectors; induction on the trace for the panics; case analysis for the destructor |
| C96 | the executions of C77 with a clock: whoever can go on does so within a limit for the kind of step; the retry loop of `bind` | potential argument: for each server that `stop` waits for, the time its thread can still spend before it sees the flag; induction over the steps of the call; a concrete execution that reaches the bound |
| C97 | networks of C72 to C84 with reliable steps; the four ways to send | two invariants of the network (request under way or being handed over; request processed, with the list of processed copies as ghost), step by step; values by C35, light by C68 |
| C98 | networks of C72 to C84; the calls that send without an answer | an invariant of the network: calls made plus calls still owed by busy threads plus calls owed for datagrams under way are, as multisets, what was owed at the start; step by step |
| C99 | networks of C72 to C98; the list of remote nodes of every controller | an invariant of the network: each list is the old one without the addresses told so far, then one entry for each of these; every address heard is told already, owed by a busy thread or under way; step by step, through `findObject` of the imported lists |
| C100 | networks of C72 to C98; calls of applications between any two internal steps | the invariant of C98 for a growing list of messages: calls made, owed by busy threads and owed for datagrams under way are, as multisets of observer, address and content, what all delivered copies call for |
| C101 | networks of C100; the list of remote nodes of every controller | the invariant of C99 for a growing list of messages, each entry traced to the message it was read from; for all executions (losses, failing sockets, contended mutexes) the same invariants with counts at most instead of equal (Props/Noise.lean) |

## What is modelled

Everything under `/repo/src`, `/repo/bin` and `/repo/examples` except what the next section lists. In detail:

* `src/protocol/{esv,message,property}.rs` (`Model/Esv`, `Model/Wire`): complete, including the printed form.
* `src/util/{bytes,oid}.rs` (`Model/Bytes`): complete.
* `src/property.rs`, `src/object.rs`, `src/super_object.rs`, `src/manufacture.rs` (`Model/Property`, `Model/Object`).
* `src/database.rs`, `src/database_manufacturers.rs`, `src/database_mra_objects.rs` (`Model/Database`, generated
  `Model/Table*`): all 36 000 lines of the table are translated by `tools/gen_database.py`, a text transformation that is
  part of the trusted base; it stops on any line it does not recognise.
* `src/node.rs`, `src/node_profile.rs`, `src/request_handler.rs`, `src/message.rs` (`Model/Node`, `Model/Messages`).
* `src/device.rs`, `src/device_node.rs`, `src/controller.rs`, `src/controller_node.rs`, `src/remote_node.rs` (`Model/Host`).
* `src/transport/*` (`Model/Transport`): managers, servers, the receive loop, interface selection (feature `unix`).
* The same with sockets and log lines (`Model/Sockets`), and `src/log/logger.rs` with `Once` and the crate `log` (`Model/Logging`).
* The same transport as running threads (`Model/Servers`): `start`, `stop` and `add_observer` as sequences of steps,
  receiver threads with stop flag, socket wait, notifier mutex and join handle, interleaved arbitrarily.
* Locking of all of these (`Model/Locks`): every API call, callback and receiver thread as a sequence of lock operations
  on the mutexes and read-write locks of the code, interleaved arbitrarily.
* Calls as interleaved accesses to the data behind the mutexes (`Model/Threads`), with `try_lock` and poisoning.
* `RequestManager` and `message_received` once more with handlers that may panic (`Model/Panics`).
* The sockets of a transport and who holds them, and the destructor of `transport::Manager` (`Model/Descriptors`).
* The time `start` and `stop` take, given limits for the single steps, and the retry loop of `UdpSocket::bind` (`Model/Timed`).
* Networks (`Model/Network`): the hosts composed; one step is one datagram taken, one observer called, one datagram lost,
  or one call of an application.
* Ownership of all of these (`Model/Memory`): `Arc` handles and the references stored in observer lists.
* `examples/monolight/monolight.rs` (`Model/MonoLight`) and the programs in `bin/` (`Model/Tools`).

## What is not modelled, and simplifications

* Time, except in `Model/Timed` (C96): the other models have no clock, a timeout is one of the things that may happen.
  `Model/Transport` treats `stop` as atomic; `Model/Servers` does not, and shows that the threads do end (C77) provided
  that `recv_from` returns, which the 500 ms read timeout sees to, and that observers return or panic.
* The operating system: interface lists, outcomes of `bind`, `join`, `send_to` and `recv_from` are parameters over which
  theorems quantify. Routing is not modelled: the address in `Tx` is that of the server whose socket sends. The code
  never selects an outgoing multicast interface, so on a multi-homed host all copies of an announcement may leave through
  the default one; and on Linux every socket bound to the wildcard address may receive every group datagram. Both are
  choices of the environment here.
* Console output, error texts, `From`/`AsRef` conveniences, the documentation examples. Logging is modelled only where it
  can matter (C92, C93); the other models leave it out, which C93 justifies for the transport.
* Features other than `unix` (`src/transport/interface.rs`, sockets without address reuse).
* Request handlers are total functions of an arbitrary application state, except in `Model/Panics` (C94), where they may
  panic, in `Model/Network`, where a host may have handlers and observers that panic (C82), and in the lock-level model. A
  handler that calls the library is covered only in the lock-level model (C50).
* In histories the application changes objects through the node and device calls and, as an arbitrary function, through
  the references from `find_object_mut` and `node_profile_object` (`Op.edit`); such an edit is one atomic step and does
  not panic.
* At most one controller per node in `Model/Host`; any number of controllers, devices and observers on one node in
  `Model/Shared` (C91).
* API calls and message processing are atomic steps in `Model/Host`; the code performs each while holding the node's
  mutex. `Model/Threads` has every call as an arbitrary program of indivisible accesses interleaved with those of other
  threads, and C89 proves that this makes no difference. There, user-supplied observers are not included; a call takes
  its mutexes at once and releases them at once; a `try_lock` may fail when another call that uses the mutex is under
  way, even if that does not hold it yet; the mutex of a `DeviceNode`, always taken with that of its node, is left out. That a call holds the mutex of the data from its first access to its last is read off the code; that
  these mutexes cause no deadlock is shown by the lock-level model separately (C50).
* Application memory exhaustion and integer limits of `usize`.

## Testing the theorems against wrong programs

`seeded/LOG.jsonl` lists the edits made to the model in scratch copies, with the theorems that failed. Surviving edits
led to new or stronger theorems (field `theorems_tightened`), or are explained there as not observable.

## Findings

Statements that a user would expect and that the model refutes; each is a theorem in `lean/Verif/Props`.

* The decoder panics on truncated write-read frames (C03), which kills the receiver thread for good (C46, C57), and
  `stop` then panics (C43) and leaves the servers it has not reached running for good (C77).
* 0x5E messages lose their property lists when encoded (C01, C02, C61), cannot be cloned (C07), and a 0x5E response to a
  pending request panics (C40, C57, C64), after which every method call of the node's devices and controller panics
  (`C57_fails_threads`, `C57_disabled`). The library's own refusal of a 0x6E request is such a frame (C27).
* 0x6E requests bypass request handlers (C33) and can rewrite the node profile (C34).
* Property maps with 16 or more entries lose codes from 0xC0 up (C17); `set_standard_version` and `standard_version`
  disagree (C53); `PropertyEnum::description` returns the name (C55).
* Message equality ignores set/get lists (C08); decoding into a used message appends (C56); lists of more than 255
  entries or data of more than 255 bytes are encoded wrongly (C52).
* The instance list wraps at 256 devices, and the class list contains duplicates and the profile's own class (C22); when
  the code of an object is changed through `find_object_mut` the node profile goes on listing the old code (C22); the
  start-up announcement carries 0xD5 but controllers read 0xD6 (C24).
* Requests with TID 0 are answered with another TID (C28, C40); the response to a post with an explicit TID is never
  delivered (C40); automatic TIDs include 0 once every 65536 (C37).
* `start` can report failure although the node runs (C42), and calling it again duplicates observers (C45); observers
  added while running are never called; two devices on one node make it answer everything twice (C45).
* `notify` on a stopped node reports success (C44); stopping a controller does not clear its list (C48); any read
  response or announcement without 0xD6 empties a node's entry (C58, C65); messages that arrive while the application
  holds the controller or node are lost (C51), also the answer to a post (C84).
* A refused write-read request kills the receiver thread of the node that posted it (C84, C27).
* Reading 0xD6 of a device object makes a controller list objects that do not exist (C73); `search_object` finds nothing
  for device codes (C74).
* Dropping one device stops the whole node (C59); nodes are in a reference cycle and are never destroyed (C66).
* The documented pattern of holding a device in a handler's mutex deadlocks (C50), also in the shipped example.
* A device with no handler of its own rejects every request (C26); codes above 24 bits are never found (C20).
* The standard table contains classes that define a property twice with different rules, and conditional access rules
  become prohibited (C21); rules of the super class override stricter ones of a class (C19, C20).
* The example light refuses all reads, can be switched by a refused request and reports the wrong status after start
  (C68); `uechopost` sends empty write-read requests and crashes on empty arguments (C69); a device can crash
  `uechosearch` (C70).
* A response is recognised by its TID alone: neither its sender nor its objects nor its service are compared with the
  request's, so another node's announcement can be taken for the answer (C76).
* Requests are not carried out at most once: a datagram duplicated by the network is carried out twice (C79).
* `Message::from_bytes` does not report malformed bytes; a truncated frame looks like a shorter one (C80).
* An object the application adds to its own `StandardDatabase` is never found if its instance byte is not 0, and never
  replaces an object of a class of the standard (C81).
* 107 entries of the table have the empty string as data type, among them required properties such as the cumulative
  energy of the power distribution board, so their type is `Unknown` (C88).
* A thread ended by a panic is not replaced: the node still counts as running and `start` does nothing (C82, C44). If the
  panic is inside the node's observer (a 0x5E response with the last TID), the poisoned mutexes end the other threads of
  that node at their next message: one datagram kills a node for good (C82).
* A node answers a request once for each controller and device made on it (C91, C45). All its controllers share one place
  for an awaited response, so a post by one of them makes the others lose theirs (C91); a controller made while the node is
  running hears nothing (C91).
* Two receiver threads that have panicked (one multicast datagram is enough, as every multicast server receives it) abort
  the process when the `transport::Manager` they belong to is dropped (C95).

## Trusted base

* Lean 4.33.0's kernel. No axioms are added; `native_decide`-style evaluation is not used (`decide +kernel` evaluates in
  the kernel itself).
* The axioms `propext`, `Classical.choice` and `Quot.sound` of Lean; the list below says which theorem uses which. It is
  generated by `tools/axioms.py`.
* The fidelity of the hand-made model to the Rust text (no code was run), including the translation of the standard
  table, the semantics of Rust (panics, integer arithmetic, indexing, `HashMap`, `Arc`, `Mutex`) written down in
  `Model/Res`, `Model/Object`, `Model/Locks` and `Model/Memory`, and of the crates `hex`, `log` and `pnet` as far as used.

<!-- axioms -->

### Axioms of each theorem

**none** (10 theorems):

C10_fromU8_toU8, C21_class_codes_distinct, C21_manufacturer_codes_distinct, C55_description_fails, C55_enum_accessors_partial, C55_enum_map, C60_new, C81_manufacturer_accessors, C87_new, Live.C95_drop_fails

**propext** (24 theorems):

C02_fails_for_0x5E, C03_fails, C03_fromBytes, C09_hasTid, C10_classes, C10_fromU8, C10_partition, C12_fails, C21_duplicate_definitions_conflict, C44_notify_not_running, C46_poison_kills_receiver, C55_enumsOk_add, C55_enumsOk_new, C57_fails_datagram, C60_access, C62_service, C70_fails_bench_args, C70_printed, C70_search_args, C71_eq, C77_crash_leaves_running, C96_any_run, C96_tight, Live.C90_observer_panics

**propext, Quot.sound** (92 theorems):

C01_encode_decode_partial, C01_fails_for_0x5E, C02_decode_encode_partial, C02_nothing_lost, C03_no_panic_partial, C03_panic_characterisation, C04_accepts_exactly_frames, C05_other_header_rejected, C07_clone_fails_other_header, C07_clone_loses_sender, C07_clone_panics_for_0x5E, C07_clone_partial, C08_fails, C11_toU32, C16_add_property, C16_panics_below_0x80, C17_fails, C17_property_maps_partial, C18_fails_renamed, C21_codes_valid, C21_enum_codes_distinct, C21_super_class_properties, C32_builtin_handler_passive, C33_fails, C33_received_write_read, C40_write_read_error_panics, C42_failed_start, C42_start, C42_start_needs_profile, C43_all_or_nothing, C43_interfaces_are_v4, C44_notify_partial, C45_calls, C45_restart_fails, C46_handed_partial, C48_fails, C51_locked_controller, C51_locked_messages_vanish, C51_locked_node, C52_in_range_partial, C56_fails, C57_fails_response, C57_fails_threads, C58_other_responses_partial, C60_data_appended, C60_fields, C61_fails_for_0x5E, C62_display, C63_interfaces, C69_fails_long_code, C69_fails_panic, C69_verbose, C70_bench_args, C70_bench_rounds, C70_fails_long_manufacturer, C71_built, C76_fails, C80_no_frame, C80_readable_unique, C81_manufacturers, C82_app_fails, C82_calls, C82_dead_node, C87_equals, C87_parse, C87_refuse, C89_poisoned, C91_late_fails, C91_node, C91_observer, C93_abstraction, C93_complete, C93_every_datagram, C93_levels, C93_receive_loop, C93_transparent, C94_calm, C94_contained, C94_network, C94_panic, C94_poison, C94_recover, C94_returns, C94_shared_fails, C96_bind, Live.C95_drop, Locks.C50_deadlock_lasts, Locks.C50_fails_example, Locks.C50_fails_handler, Locks.C50_fails_observer, Locks.C57_fails_poisoned, Locks.C57_poison_lasts

**propext, Classical.choice, Quot.sound** (274 theorems):

C05_truncated_frame_rejected, C05_truncated_message_rejected, C06_encoding_unambiguous, C06_frame_unambiguous, C08_equals_characterisation, C08_equals_ignores_setget, C08_equals_partial, C09_header_accessors, C100_all_executions, C100_chatter, C100_harmless, C101_all_executions, C101_any_time, C101_at_once, C101_descriptions, C101_recovers, C11_fromU32, C11_read_after_write, C11_write_after_read, C12_no_panic_partial, C12_panics_iff, C13_oid_distinct, C13_oid_layout, C14_code_bytes, C14_code_setCode, C14_eq_iff, C15_equals, C15_set_property_byte, C15_set_property_data, C15_set_property_int, C16_add_property_no_panic, C17_history_partial, C18_clone, C18_clone_maps, C18_clone_no_panic, C19_import_result, C19_maps_order_independent, C19_no_panic, C19_order_independent, C20_fails_wide_code, C20_initial_data, C20_new_device, C21_builds, C21_conditional_rules_prohibited, C21_find_manufacturer, C21_find_object, C22_add_never_panics, C22_fails_256_devices, C22_fails_class_list, C22_fails_code_change, C22_instance_lists_partial, C22_profile_partial, C23_discovery, C24_listed_without_devices_partial, C25_silence, C26_accept_iff, C26_accepting_handler, C26_builtin_handler_only, C27_error_echo_partial, C27_write_read_error_undecodable, C27_write_read_fails, C28_correlation_partial, C28_header, C28_tid_zero_fails, C29_read_returns_data, C30_accepted_write, C30_passive_handlers, C31_all_or_nothing, C31_error_changes_nothing, C32_no_disclosure, C32_no_forbidden_write, C33_handler_approval_partial, C33_write_read_bypasses_handlers, C34_fails_standard, C34_remote_immutable_partial, C34_write_read_fails, C35_judged_replies, C35_judged_values, C35_replies, C35_values, C36_one_routed_reply, C36_reply_transmitted, C37_consecutive, C37_distinct_in_window, C37_wraps_to_zero, C38_counter, C38_explicit_tids, C39_at_most_one, C39_may_answer_other_request, C40_delivered_partial, C40_explicit_tid_fails, C40_tid_zero_request_fails, C41_superseded, C42_stop, C43_node_start, C43_start, C43_stop, C44_send, C45_controller, C45_controller_observers, C45_exactly_once_partial, C45_history, C45_late_observer_fails, C45_two_devices_fails, C46_end, C47_never_panics, C47_node_list, C47_standard_properties, C48_stop_partial, C49_post, C49_search, C49_send, C51_lost_search_result, C52_count_truncated, C52_data_truncated, C52_fails, C53_setters_partial, C53_standard_version_fails, C54_device_setters, C54_new_device_setters, C54_property_access, C54_read_after_write, C55_clone_any_order, C56_reuse_partial, C57_disabled, C57_no_panic_partial, C57_receive_panics_iff, C57_receiver_partial, C57_threads_partial, C58_fails, C59_fails, C59_stop_partial, C60_data, C60_no_panic, C60_readers, C61_accessors, C61_encoding_partial, C61_property, C62_display_unambiguous, C63_has_interface, C63_start, C64_call_partial, C64_fails_write_read, C64_refused_partial, C65_announce, C65_controller_forgets, C67_app_state, C67_calls, C67_calls_history, C68_agrees_partial, C68_fails_batch, C68_fails_reads, C68_fails_start, C68_fails_write_read, C68_ignores_partial, C68_no_panic, C68_switch_partial, C69_fails_object_zero, C69_fails_write_read, C69_hex, C69_message_partial, C69_not_request, C69_only, C69_sent_partial, C70_bench, C70_manufacturer_partial, C70_options, C70_search, C70_sent, C71_addressed, C71_clone, C71_clone_no_panic, C72_comes_to_rest, C72_only_responses, C72_replies_bounded, C73_fails, C73_listed_objects_exist_partial, C74_absent_silent_partial, C74_fails, C75_discovers, C75_progress, C76_answer_partial, C76_last_request_partial, C76_no_invention, C77_panics_only, C77_result, C77_silent, C77_stop_bounded, C77_stop_progress, C78_complete, C78_complete_at_end, C78_order, C78_registered, C78_waits, C79_at_most_once_fails, C79_delivered, C79_moment, C79_read, C79_write, C80_double, C80_single, C80_truncation_undetected_fails, C81_added_found_partial, C81_added_manufacturer, C81_fails_instance, C81_fails_standard, C81_objects, C82_contained, C82_poison_kills, C82_survives, C82_thread_fails, C82_threads_end, C82_two_datagrams, C83_linearizable, C83_read_after_write, C84_answered, C84_contended_fails, C84_progress, C84_values, C84_write_read_fails, C85_read_back, C85_session, C86_answered, C86_linearizable, C86_read_back, C88_database_partial, C88_device_partial, C88_fails_untyped, C88_types, C89_critical_sections, C89_exclusion, C89_finite, C89_linearizable, C89_progress, C91_lists, C91_no_panic_partial, C91_post_partial, C91_posts_fails, C91_replies_fails, C91_served, C91_stop_fails, C92_ends, C92_exclusive, C92_init, C94_dead, C94_dead_after, C96_in_time, C96_progress, C96_stop_default, C97_carried_out, C97_light, C97_values, C98_told, C98_unharmed, C99_announcement, C99_instance_list, C99_known, C99_others, C99_series, Live.C90_crash, Live.C90_schedule_free, Live.C90_sequential, Live.C95_bounded, Live.C95_closed, Live.C95_owned, Live.C95_stop_again, Live.C95_stop_twice, Locks.C50_never_deadlocked_partial, Locks.C50_no_deadlock_partial, Memory.C66_counted, Memory.C66_keeps_running, Memory.C66_never_destroyed, Memory.C66_owner_never_destroyed, Memory.C66_owner_stops_partial

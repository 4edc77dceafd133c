{"id": "C01", "title": "Encode then decode is the identity", "statement": "For every message whose property lists have at most 255 entries and whose property values have at most 255 bytes, decoding Message::bytes() into a fresh Message succeeds and yields the same TID, SEOJ, DEOJ, ESV code and the same properties (the single list, or the set and get lists for write-read services).", "quantifier": "every message with the Format-1 header that Message::new gives (only decoding a foreign datagram changes it): any TID, EOJs, ESV byte, any number and size of properties within the format limits", "why_tests_cant": "the space of messages is infinite; the unit test round-trips three hand-written frames", "anchors": ["src/protocol/message.rs: Message::bytes, Message::parse, add_property_bytes, parse_property_bytes", "src/protocol/property.rs: Property::parse"]}
{"id": "C02", "title": "Decode then encode loses nothing", "statement": "Whenever Message::parse accepts a datagram into a fresh Message, Message::bytes() of the result reproduces exactly the bytes that were consumed, i.e. the datagram minus an ignored trailing part.", "quantifier": "every byte string accepted by the decoder", "why_tests_cant": "all byte strings of all lengths; tests use a handful", "anchors": ["src/protocol/message.rs: Message::parse, Message::bytes"]}
{"id": "C03", "title": "The decoder never panics", "statement": "Message::parse / Message::from_bytes return (true or false) on every byte string; no datagram from the network can crash the receiving thread.", "quantifier": "every byte string, every build profile", "why_tests_cant": "a fuzzer only samples; absence of out-of-bounds indexing is a universally quantified claim", "anchors": ["src/protocol/message.rs: Message::parse, parse_header, parse_format1_data, parse_property_bytes", "src/protocol/property.rs: Property::parse"]}
{"id": "C04", "title": "The decoder accepts exactly the Format-1 frames", "statement": "Message::parse returns true exactly for byte strings of the form EHD1=0x10 EHD2=0x81 TID SEOJ DEOJ ESV OPC (EPC PDC EDT)* [OPCGet (EPC PDC EDT)* for write-read services] followed by arbitrary trailing bytes, and the decoded fields are the ones in the frame.", "quantifier": "every byte string", "why_tests_cant": "needs both directions (soundness and completeness) over all inputs", "anchors": ["src/protocol/message.rs: Message::parse, parse_format1_data, is_format1"]}
{"id": "C05", "title": "A truncated frame is never accepted", "statement": "No proper prefix of a frame produced by Message::bytes() (with in-range sizes) is ever accepted by the decoder, so a datagram cut at the 1024-byte receive buffer is never mistaken for a shorter message.", "quantifier": "every message and every cut position", "why_tests_cant": "all messages times all cut points", "anchors": ["src/protocol/message.rs: Message::parse, Message::bytes", "src/transport/default.rs: MAX_PACKET_SIZE"]}
{"id": "C06", "title": "Encoding is unambiguous", "statement": "Two in-range messages with equal wire bytes have equal headers, TID, SEOJ, DEOJ, ESV code and equal wire properties; moreover neither encoding is a proper prefix of the other.", "quantifier": "every pair of messages", "why_tests_cant": "pairs of unbounded objects", "anchors": ["src/protocol/message.rs: Message::bytes"]}
{"id": "C07", "title": "Cloning a message preserves it", "statement": "Message::clone returns a message with the same TID, EOJs, ESV, properties and sender address, and never panics.", "quantifier": "every message", "why_tests_cant": "clone is implemented through encode+decode, so every encoder/decoder corner case is involved", "anchors": ["src/protocol/message.rs: impl Clone for Message"]}
{"id": "C08", "title": "Message equality is equality of contents", "statement": "Message::equals(a,b) is true exactly when a and b agree on TID, SEOJ, DEOJ, ESV and all properties.", "quantifier": "every pair of messages", "why_tests_cant": "pairs of unbounded lists", "anchors": ["src/protocol/message.rs: Message::equals", "src/protocol/property.rs: Property::equals"]}
{"id": "C09", "title": "Header accessors are lossless", "statement": "set_tid/tid round-trip for all 65536 TIDs, set_seoj/seoj and set_deoj/deoj return the low 24 bits of any 32-bit code, set_esv/esv round-trips, and no setter disturbs another field.", "quantifier": "every TID, every 32-bit object code, every ESV, every message", "why_tests_cant": "2^32 codes; frame conditions over all messages", "anchors": ["src/protocol/message.rs: set_tid, tid, set_seoj, seoj, set_deoj, deoj, set_esv, esv, to_object_code"]}
{"id": "C10", "title": "Service codes are classified consistently", "statement": "Every byte maps to the ESV whose ECHONET code it is, or Unknown; to_u8 inverts it; request and response classes are disjoint and cover all known services; error responses are unicast responses; the derived classes agree with the service code ranges of the standard (0x60..0x6F and 0x74 requests, 0x70..0x7F responses/notifications, 0x50..0x5F errors).", "quantifier": "all 256 service bytes", "why_tests_cant": "the test only checks enum to byte to enum, not bytes to enum nor the classes", "anchors": ["src/protocol/esv.rs: ESV::from_u8, to_u8, is_request, is_response, is_error_response, is_notification_response, is_unicast_response"]}
{"id": "C100", "title": "Notifications sent at any time by several hosts all arrive, each once per copy", "statement": "When applications of any hosts send out any number of notifications and other responses (of any service but 0x5E) at any time, one after the other or at once, from a network at rest on, then whenever the network is at rest again, at every host each observer of the application has been called exactly once per registration for each copy of each message that was delivered to a running receiver thread it is registered with, with the content of that message and the address the copy came from, and for nothing else. At any time in between no observer has been called more often than that, no node has put out another datagram, no object, no request handler and no state of a handler of any node has changed, no observer has panicked, and every node has kept its sockets and registrations. The last also holds when datagrams get lost at any time, sockets fail and receiver threads find the node or the controller in use by another thread.", "quantifier": "all networks at rest with any number of hosts and registered observers, all series of response messages that fit into the receive buffer, sent by any hosts between any two steps of any receiver threads, all ways to send them (notify, announce_property, send_message of node and controller), all interleavings of receiver threads, all losses on the way to the network, duplications and orders of arrival", "why_tests_cant": "That no message is lost, mixed up or handed out twice when several hosts send while several receiver threads are at work is a statement about all schedules of several processes.", "anchors": ["src/node.rs: notify, annouce_property, send_message, message_received", "src/controller.rs: send_message", "src/transport/notify_manager.rs: notify", "src/transport/unicast_server.rs: start", "src/transport/multicast_server.rs: start", "src/transport/observer.rs: Observer"]}
{"id": "C101", "title": "Nodes that announce themselves at once are all known", "statement": "When applications of any hosts send out any notifications and other responses (of any service but 0x5E) at any time, also at once, from a network at rest on, then whenever the network is at rest again each controller (whose list has at most one entry per address) lists exactly one node for each address it has heard a node description from (a read response or notification for the node profile), with exactly the objects of one of the descriptions heard from there and the node profile; if all of these name the same objects, exactly these. Its other entries are as before, in the same order. At any time in between, a controller lists at most one node per address, each entry is one it listed before or a description it has heard, and no entry is lost for which it has not heard another description. The last also holds when datagrams get lost at any time, sockets fail and receiver threads find the node or the controller in use by another thread. And whatever got lost in that way, as soon as the network has been at rest and a node then announces itself without losses and contention, every controller that hears it lists it once, with exactly the objects it named.", "quantifier": "all networks at rest with any number of hosts and controllers, all lists with one entry per address, all series of response messages that fit into the receive buffer, sent by any hosts between any two steps of any receiver threads, all ways to send them, all interleavings of receiver threads, all losses on the way to the network, duplications and orders of arrival", "why_tests_cant": "That descriptions of different nodes arriving at the same time at several threads of a controller are neither mixed up nor lost is a statement about all schedules of several processes.", "anchors": ["src/controller_node.rs: message_received, replace_remote_node, send_message", "src/remote_node.rs: from_message", "src/node.rs: annouce_property, notify, send_message", "src/transport/unicast_server.rs: start", "src/transport/multicast_server.rs: start", "src/transport/observer.rs: Observer"]}
{"id": "C11", "title": "Byte/integer conversion is big-endian and lossless", "statement": "For buffers of at most four bytes, Bytes::from_u32 writes the big-endian representation of the value modulo 256^len, and Bytes::to_u32 reads the big-endian value; each inverts the other.", "quantifier": "every u32 and every buffer of length 0..4", "why_tests_cant": "2^32 values; the test steps through 256 of them", "anchors": ["src/util/bytes.rs: Bytes::from_u32, Bytes::to_u32"]}
{"id": "C12", "title": "Integer conversion never panics", "statement": "Bytes::to_u32 and Bytes::from_u32 (and data_as_int, set_int_data built on them) return for every buffer length.", "quantifier": "every buffer length, both build profiles", "why_tests_cant": "depends on length and on overflow checking of the build profile", "anchors": ["src/util/bytes.rs: Bytes::from_u32, Bytes::to_u32", "src/property.rs: Property::data_as_int, set_int_data"]}
{"id": "C13", "title": "Identification numbers have the standard layout", "statement": "OID::new(code) is 17 bytes: 0xFE, the 3-byte big-endian manufacturer code, then 13 bytes taken from the UUID (in reverse), so different low 13 UUID bytes give different OIDs.", "quantifier": "every manufacturer code and every UUID", "why_tests_cant": "all codes and UUIDs", "anchors": ["src/util/oid.rs: OID::new"]}
{"id": "C14", "title": "Object codes identify objects", "statement": "Object::code() after set_code(c) is c's low 24 bits, group/class/instance accessors are its three bytes, two objects compare equal iff their codes are equal, and equal objects hash equally.", "quantifier": "every 32-bit code, every pair of objects", "why_tests_cant": "2^32 codes, all pairs", "anchors": ["src/object.rs: set_code, code, class_group_code, class_code, instance_code, PartialEq, Hash"]}
{"id": "C15", "title": "Property data reads back and does not leak elsewhere", "statement": "set_property_data (and the byte/bytes/int variants) succeed exactly when the property exists; afterwards reading that property returns the written data, and every other property and attribute is unchanged.", "quantifier": "every object, property code and data", "why_tests_cant": "frame condition over all other properties of all objects", "anchors": ["src/object.rs: set_property_data, property_data, property_data_as_bytes, property_data_as_int", "src/property.rs: set_data, data"]}
{"id": "C16", "title": "Adding a property never overwrites an existing one", "statement": "Object::add_property keeps the existing property's attributes, capacity and name if the code is already present, otherwise adds the new property; all other non-property-map properties keep their data.", "quantifier": "every object whose properties have the valid codes 0x80..0xFF and are filed under their own codes (true unless the application changes a property's code in place), every property, every hash-map iteration order", "why_tests_cant": "depends on map contents and iteration order", "anchors": ["src/object.rs: add_property"]}
{"id": "C17", "title": "Property maps list exactly the accessible properties", "statement": "After any add_property, the data of the Get/Set/Announcement property maps (0x9F, 0x9E, 0x9D), decoded according to the ECHONET property-map format, is exactly the set of codes of readable/writable/announceable properties.", "quantifier": "every object reachable by any sequence of add_property calls, every hash-map iteration order", "why_tests_cant": "unbounded property sets; the two formats switch at 16 properties", "anchors": ["src/object.rs: update_property_maps, to_property_map_bytes", "src/super_object.rs: OBJECT_PROPERTY_MAP_FORMAT1_MAX_SIZE"]}
{"id": "C18", "title": "Cloning an object preserves it", "statement": "Object::clone has the same code, names and properties (attributes, capacities and data), except that its property maps are recomputed.", "quantifier": "every object whose properties have the valid codes 0x80..0xFF and are filed under their own codes (true unless the application changes a property's code in place), every hash-map iteration order", "why_tests_cant": "iteration order of the hash map is random per process", "anchors": ["src/object.rs: impl Clone for Object", "src/property.rs: impl Clone for Property"]}
{"id": "C19", "title": "Importing standard properties does not depend on hash order", "statement": "add_standard_properties yields, for any iteration order of the database hash map, the same set of properties, attributes and default data (up to the order of codes inside a Format-1 property map).", "quantifier": "every object, every class, every pair of iteration orders", "why_tests_cant": "HashMap order is randomised; a test sees one order per run", "anchors": ["src/object.rs: add_standard_properties"]}
{"id": "C20", "title": "A new device has its standard properties", "statement": "Device::new(code) creates a node containing an object with that code having every property of the super class and of its class, super-class definitions taking precedence, with operating status off, no fault, manufacturer code 0xFFFFFF, location 0, version appendix P and a 17-byte identification number.", "quantifier": "every object code (a code wider than 24 bits is cut to 24 bits), every iteration order, every UUID", "why_tests_cant": "all codes and random seeds", "anchors": ["src/device.rs: Device::new, init", "src/object.rs: add_standard_properties"]}
{"id": "C21", "title": "The standard database is well-formed", "statement": "No two database objects share a class code, every property code is in 0x80..0xFF, every class inherits the three property maps from the super class, manufacturers are looked up by unique code (first entry wins), and lookups ignore the instance code.", "quantifier": "every object, property and manufacturer in the generated tables; every lookup code", "why_tests_cant": "tests look up one manufacturer and two objects", "anchors": ["src/database.rs: find_object, find_manufacture", "src/database_mra_objects.rs: init_objects", "src/database_manufacturers.rs: init_manufactures"]}
{"id": "C22", "title": "The node profile always describes the node's objects", "statement": "After any sequence of add_object calls, the node profile's instance lists (0xD5, 0xD6) hold the number and the codes of all non-profile objects in insertion order, 0xD3 their number and 0xD4/0xD7 the class information.", "quantifier": "every sequence of added objects", "why_tests_cant": "all histories", "anchors": ["src/node.rs: add_object, update_node_profile", "src/node_profile.rs: NodeProfile::update"]}
{"id": "C23", "title": "Discovery reports exactly the remote node's objects", "statement": "When a node with at most 84 devices answers a controller's search over the wire, the controller's RemoteNode for that sender lists exactly the device object codes of the node in order (plus the node profile).", "quantifier": "every node with up to 84 device objects, every TID", "why_tests_cant": "end-to-end composition of request handling, encoding, decoding and parsing for all nodes", "anchors": ["src/message.rs: SearchMessage, NodeProfileMessage::parse", "src/remote_node.rs: RemoteNode::from_message", "src/node.rs: message_received"]}
{"id": "C24", "title": "A start-up announcement tells controllers about the node's objects", "statement": "A controller that receives a node's announcement (Node::annouce) afterwards lists the node with its device objects.", "quantifier": "every node, every controller state", "why_tests_cant": "end-to-end over all node configurations", "anchors": ["src/node.rs: annouce", "src/message.rs: NodeProfileMessage::parse, is_node_profile_message", "src/controller_node.rs: message_received"]}
{"id": "C25", "title": "Nodes stay silent where the standard says so", "statement": "A message that is not a request, or that is addressed to an object the node does not have, produces no reply and changes no object.", "quantifier": "every message, node state and handler behaviour", "why_tests_cant": "all messages and states", "anchors": ["src/node.rs: Node::message_received"]}
{"id": "C26", "title": "Requests are accepted exactly under the documented conditions", "statement": "A request to an existing object gets a success response (or, for 0x60, silence) iff every listed property exists, has the needed access right, fits the capacity and some registered handler accepts all properties; otherwise it gets the corresponding error response.", "quantifier": "every request, node state and handler behaviour", "why_tests_cant": "decision table over all states", "anchors": ["src/node.rs: message_received, is_valid_request_message", "src/request_handler.rs: RequestManager::property_request_received", "src/message.rs: ResponseErrorMessage::from"]}
{"id": "C27", "title": "Error responses echo the request", "statement": "An error response carries the request's TID, swapped EOJs, the error service matching the request and exactly the request's properties with their data.", "quantifier": "every rejected request", "why_tests_cant": "all requests", "anchors": ["src/message.rs: ResponseErrorMessage::from"]}
{"id": "C28", "title": "Responses are correlated with their request on the wire", "statement": "Every response put on the wire for a request carries the request's TID, SEOJ = request DEOJ, DEOJ = request SEOJ and lists the request's property codes in order.", "quantifier": "every request and node state", "why_tests_cant": "all TIDs including the corner 0", "anchors": ["src/node.rs: Observer::message_received, send_message, update_message_trandaction_id", "src/message.rs: ResponseMessage::from", "src/object.rs: message_received"]}
{"id": "C29", "title": "A read returns the current data", "statement": "An accepted read, notification or write-read request is answered with the data held by the object for each requested property, in request order.", "quantifier": "every accepted request, node state", "why_tests_cant": "all states", "anchors": ["src/object.rs: Object::message_received"]}
{"id": "C30", "title": "An accepted write stores exactly the written data", "statement": "After an accepted 0x60/0x61/0x6E request (one that is answered without an error reply), each written property holds the last data written for it in the request; every other non-map property is as the handlers left it; other objects are untouched.", "quantifier": "every accepted write, node state, handler behaviour", "why_tests_cant": "frame condition plus duplicates in the request", "anchors": ["src/node.rs: Node::message_received"]}
{"id": "C31", "title": "A rejected request changes nothing", "statement": "If a request is answered with an error response or with silence because it was invalid, no object of the node changes (multi-property writes are all-or-nothing).", "quantifier": "every rejected request, every handler (including handlers that modify the object before refusing)", "why_tests_cant": "all handlers and states", "anchors": ["src/node.rs: Node::message_received"]}
{"id": "C32", "title": "Access attributes are enforced for remote peers", "statement": "No message makes the node disclose the data of a non-readable property, overwrite a non-writable property, or store more bytes than a positive capacity; the built-in and read-only handlers never weaken this.", "quantifier": "every message, node state", "why_tests_cant": "all messages", "anchors": ["src/node.rs: is_valid_request_message", "src/property.rs: is_readable, is_writable, capacity"]}
{"id": "C33", "title": "Every remote write needs a handler's approval", "statement": "No remote message changes an object's data unless some registered request handler was consulted and accepted every property write in that message.", "quantifier": "every message, handler set, node state", "why_tests_cant": "all handlers and messages", "anchors": ["src/request_handler.rs: property_request_received", "src/node.rs: message_received, RequestHandler for Arc<Mutex<Node>>"]}
{"id": "C34", "title": "The node profile cannot be modified remotely", "statement": "With only the built-in handler, no sequence of remote messages changes the node profile object's data (other than refreshed property maps).", "quantifier": "every sequence of messages", "why_tests_cant": "all histories", "anchors": ["src/node.rs: RequestHandler for Arc<Mutex<Node>>"]}
{"id": "C35", "title": "A device behaves like a map from property codes to values", "statement": "For any sequence of remote requests to a device whose handler accepts everything without side effects, reads return exactly the value of the last accepted write (initial value otherwise).", "quantifier": "every sequence of messages of any length", "why_tests_cant": "all histories; refinement", "anchors": ["src/node.rs: message_received", "src/object.rs: message_received"]}
{"id": "C36", "title": "Each received request produces at most one reply, routed by its service", "statement": "Processing one message emits at most one frame; read/write responses and errors go to the sender's IP at port 3610, notifications are multicast, nothing is sent for other messages.", "quantifier": "every message and node state", "why_tests_cant": "all states", "anchors": ["src/node.rs: Observer for Arc<Mutex<Node>>"]}
{"id": "C37", "title": "Automatic transaction IDs do not repeat within 65536 transmissions", "statement": "TIDs assigned automatically by consecutive transmissions are pairwise distinct within any window of 65536 and advance by one modulo 65536.", "quantifier": "every starting state and any number of transmissions", "why_tests_cant": "wrap-around needs 65536 steps and all starting points", "anchors": ["src/node.rs: next_tid, update_message_trandaction_id"]}
{"id": "C38", "title": "Explicit transaction IDs are respected", "statement": "A message with a non-zero TID is transmitted unchanged and does not consume a TID; a message with TID 0 is given a fresh one.", "quantifier": "every message and state", "why_tests_cant": "all TIDs and states", "anchors": ["src/node.rs: update_message_trandaction_id, send_message, notify", "src/protocol/message.rs: has_tid"]}
{"id": "C39", "title": "A posted request receives at most one, matching response", "statement": "Over any history of API calls and received messages, each Receiver returned by post_message gets at most one message, and that message is a non-request whose TID is the one current when it arrived.", "quantifier": "every interleaving of posts, sends and received messages", "why_tests_cant": "all histories", "anchors": ["src/node.rs: post_message, is_last_message_response, send_post_reopnse"]}
{"id": "C40", "title": "The response to a posted request is delivered", "statement": "If a response with the transmitted TID arrives while the request is the latest one, the Receiver returned by post_message obtains it.", "quantifier": "every posted message, every response, every intervening history", "why_tests_cant": "all histories; includes re-posting a message with a TID, and requests handled in between", "anchors": ["src/node.rs: post_message, is_last_message_response, send_post_reopnse, update_message_trandaction_id"]}
{"id": "C41", "title": "A superseded post is never answered", "statement": "After a second post_message, the first Receiver never obtains a message.", "quantifier": "every history", "why_tests_cant": "all histories", "anchors": ["src/node.rs: post_message"]}
{"id": "C42", "title": "Starting and stopping sets the status properties", "statement": "After a successful start every object with the property has operating status 0x30 and fault status 0x42; after stop operating status is 0x31; no other property or object attribute changes.", "quantifier": "every node state", "why_tests_cant": "all states", "anchors": ["src/node.rs: start, stop, set_object_properties_byte"]}
{"id": "C43", "title": "Transport start is all-or-nothing", "statement": "Manager::start returns true iff both the unicast and the multicast side have at least one bound server, and on failure no server is left; stop always leaves none; starting a running manager changes nothing.", "quantifier": "every set of interfaces and every bind outcome", "why_tests_cant": "all environments", "anchors": ["src/transport/manager.rs", "src/transport/unicast_manager.rs", "src/transport/multicast_manager.rs"]}
{"id": "C44", "title": "A successful send put the message on the wire", "statement": "Manager::send returns true iff exactly one server transmitted the frame; Manager::notify returns true iff the frame was transmitted on every multicast interface and there is at least one.", "quantifier": "every manager state and every send outcome", "why_tests_cant": "all environments", "anchors": ["src/transport/manager.rs: send, notify", "src/transport/unicast_manager.rs: send", "src/transport/multicast_manager.rs: notify"]}
{"id": "C45", "title": "Each observer sees each received message exactly once", "statement": "While running, every observer registered on the node is invoked exactly once per datagram received by a server.", "quantifier": "every sequence of add_observer/start/stop calls", "why_tests_cant": "all histories, including repeated start", "anchors": ["src/node.rs: start", "src/transport/notify_manager.rs: notify, add_observer"]}
{"id": "C46", "title": "Only well-formed datagrams reach observers", "statement": "For any sequence of datagrams and socket errors, the receive loop hands observers exactly the decodable datagrams, in order, each with the sender's address, and keeps running until stopped or a fatal socket error.", "quantifier": "every sequence of received datagrams", "why_tests_cant": "all sequences", "anchors": ["src/transport/unicast_server.rs: start", "src/transport/multicast_server.rs: start"]}
{"id": "C47", "title": "The controller lists each remote address once, most recent information last", "statement": "Over any history of received messages the controller's node list has pairwise distinct addresses, contains exactly the senders of node-profile messages, and each entry reflects the latest such message.", "quantifier": "every sequence of received messages", "why_tests_cant": "all histories", "anchors": ["src/controller_node.rs: replace_remote_node, message_received", "src/remote_node.rs: PartialEq"]}
{"id": "C48", "title": "Stopping the controller clears the discovered nodes", "statement": "After Controller::stop, Controller::nodes() is empty (as documented).", "quantifier": "every controller state", "why_tests_cant": "all states", "anchors": ["src/controller.rs: stop", "src/controller_node.rs: stop"]}
{"id": "C49", "title": "Controller messages are addressed as documented", "statement": "Messages sent or posted by the controller go to the remote node's IP at port 3610 with SEOJ = 0x0EF001, keep DEOJ, ESV and properties, and get a TID; a search multicasts a read request of 0xD6 to the given object.", "quantifier": "every message, remote node and state", "why_tests_cant": "all states", "anchors": ["src/controller_node.rs: send_message, post_message, search_object", "src/message.rs: SearchMessage"]}
{"id": "C50", "title": "No deadlock", "statement": "API calls, received messages and request handlers never block each other for ever: in every reachable lock state some thread can make progress.", "quantifier": "every interleaving of the application thread and the receiver threads", "why_tests_cant": "schedules cannot be enumerated by tests", "anchors": ["src/node.rs: Observer::message_received (try_lock), message_received", "src/request_handler.rs: handler.lock()", "src/device.rs: start, stop", "src/transport/unicast_server.rs: stop (join)"]}
{"id": "C51", "title": "A message arriving while the node is locked has no effect", "statement": "If the node (or controller) mutex is held when a message arrives, the message is dropped: no state change, no reply, no delivery.", "quantifier": "every state and message", "why_tests_cant": "timing dependent", "anchors": ["src/node.rs: Observer::message_received", "src/controller_node.rs: Observer::message_received"]}
{"id": "C52", "title": "Oversize messages are never silently corrupted", "statement": "If a message does not fit the format (more than 255 properties in a list or more than 255 bytes in a property), its transmission is refused or it still decodes to itself.", "quantifier": "every oversize message", "why_tests_cant": "unbounded sizes", "anchors": ["src/protocol/message.rs: add_property_bytes (as u8 casts)"]}
{"id": "C53", "title": "Object setters and getters agree", "statement": "After set_manufacturer_code, set_operating_status, set_fault_status, set_installation_location, set_standard_version and set_id on an object having the property, the corresponding getter returns the value set.", "quantifier": "every object and value", "why_tests_cant": "all values", "anchors": ["src/super_object.rs"]}
{"id": "C54", "title": "Device property access targets the device's object", "statement": "Device::set_property/property write and read the data of the object with the device's code, return false/None exactly when the property does not exist, and leave everything else unchanged.", "quantifier": "every node, device code, property code and data", "why_tests_cant": "all states and codes", "anchors": ["src/device_node.rs: set_property, property", "src/device.rs"]}
{"id": "C55", "title": "Property enumerations behave like a map", "statement": "add_enum/find_enum behave like a map keyed by enum code, survive cloning in any hash order, and code/name/description return what was set.", "quantifier": "every sequence of add_enum calls, every iteration order", "why_tests_cant": "all histories and orders", "anchors": ["src/property.rs: PropertyEnum, add_enum, find_enum, enums, Clone"]}
{"id": "C56", "title": "Decoding is independent of the message's previous contents", "statement": "Parsing a datagram into a reused Message gives the same result as parsing it into a fresh one.", "quantifier": "every message and every datagram", "why_tests_cant": "pairs of states and inputs", "anchors": ["src/protocol/message.rs: Message::parse"]}
{"id": "C57", "title": "No history of network traffic crashes the node", "statement": "For every sequence of received datagrams, and every interleaving of their delivery with calls by the application's threads, no receiver thread and no thread of the application panics and the node mutex is never poisoned.", "quantifier": "every sequence of datagrams, node state and handler", "why_tests_cant": "all histories", "anchors": ["src/protocol/message.rs: parse, clone", "src/node.rs: Observer::message_received", "src/transport/unicast_server.rs"]}
{"id": "C58", "title": "Talking to a discovered node does not make the controller forget it", "statement": "Reading a property of an object of a discovered node (Controller::send_message/post_message and the node's answer) leaves the objects the controller lists for that node unchanged.", "quantifier": "all controllers, remote nodes, read requests, device states and answers", "why_tests_cant": "Depends on every possible answer and on the controller's state at its arrival; the tests only search once and read afterwards.", "anchors": ["src/controller_node.rs: message_received, replace_remote_node", "src/remote_node.rs: parse", "src/message.rs: is_node_profile_message"]}
{"id": "C59", "title": "Dropping one device leaves the other devices of the node alive", "statement": "When several Device values share a node (Device::new_with_node), stopping or dropping one of them does not stop the reception, the sending or the operating status of the others.", "quantifier": "all nodes, devices and states", "why_tests_cant": "A statement about all lifetimes and states of devices sharing a node.", "anchors": ["src/device.rs: Drop for Device, stop", "src/device_node.rs: stop", "src/node.rs: stop"]}
{"id": "C60", "title": "The accessors of a property reflect exactly the calls made on it", "statement": "After any sequence of Property setter calls, every accessor (code, name, data type, capacity, attributes, is_* predicates, enumerations, data/size/data_as_byte/data_as_int/equals_data) returns what the last relevant call stored: the data is what the last replacing call stored followed by everything add_data appended since, and the access predicates follow the attributes.", "quantifier": "every initial property and every sequence of setter calls", "why_tests_cant": "Quantifies over all call sequences and values.", "anchors": ["src/property.rs: Property"]}
{"id": "C61", "title": "A message built through the API is encoded as described by the calls", "statement": "For every sequence of Message setter and add_property* calls, the accessors return the last header values and all properties in insertion order, and bytes() is the ECHONET Lite Format-1 frame with exactly that content.", "quantifier": "every sequence of builder calls", "why_tests_cant": "All call orders and values.", "anchors": ["src/protocol/message.rs: Message setters, add_property*, bytes"]}
{"id": "C62", "title": "The printed form of a message is faithful", "statement": "Displaying a message writes its wire encoding as two upper-case hexadecimal digits per byte; two in-range messages that print alike have the same contents.", "quantifier": "every message", "why_tests_cant": "Injectivity over all messages.", "anchors": ["src/protocol/message.rs: impl Display for Message"]}
{"id": "C63", "title": "A node uses exactly the usable network interfaces", "statement": "get_all_interfaces returns exactly the IPv4 addresses of interfaces that are up and neither loopback nor point-to-point (except the Docker bridge), in order; a started transport listens on exactly those of them whose sockets could be set up.", "quantifier": "every interface list and every outcome of the socket operations", "why_tests_cant": "All host configurations and socket outcomes.", "anchors": ["src/transport/interface_unix.rs: get_interfaces", "src/transport/manager.rs: start"]}
{"id": "C64", "title": "A remote call returns what the remote object did", "statement": "Controller::post_message of a write (0x61), read (0x62) or write-read (0x6E) request to an object of another node: the datagram makes that node perform exactly the requested writes (or none, if any property is not allowed) and answer to the caller; when the answer arrives the caller's receiver gets one message from that object with the matching success or error service, the acknowledged properties, and the values the object holds after the writes.", "quantifier": "every request, controller history, device state and handlers, socket outcome, hash order, and everything that happens on the caller between the call and the answer", "why_tests_cant": "Composition of encoder, transport, decoder, request processing and correlation over all states of two nodes.", "anchors": ["src/controller.rs: post_message", "src/node.rs: post_message, message_received", "src/protocol/message.rs: bytes, parse", "src/transport/unicast_server.rs: start, send"]}
{"id": "C65", "title": "Announcing a property informs the observers of other nodes", "statement": "Node::annouce_property changes no object, returns true iff every multicast send succeeded, sends one datagram per multicast server to 224.0.23.0:3610, and each datagram, received by another node, reaches each application observer there with the object's code as SEOJ and exactly the property's code and data; the receiving node answers and changes nothing.", "quantifier": "every node, object, property with at most 255 bytes of data, socket outcome, and every receiving host with any observers", "why_tests_cant": "All property contents and all receiver states.", "anchors": ["src/node.rs: annouce_property, create_annouce_property_message", "src/transport/manager.rs: notify", "src/transport/notify_manager.rs: notify"]}
{"id": "C66", "title": "Dropping the last handle releases and stops a node", "statement": "When the application has dropped every handle it holds of a Node (or of a Controller or Device), the node is destroyed and, by its destructor, stopped: its sockets are closed and its receiver threads end. Dropping a Controller or Device stops its node. No cell is destroyed while a handle or another living cell refers to it.", "quantifier": "every sequence of node, controller and device creations, handler and observer registrations, starts, stops, clones and drops", "why_tests_cant": "Ranges over all histories of ownership; a leak has no observable effect in a passing test.", "anchors": ["src/node.rs: Node::new, Drop for Node, add_request_handler, add_observer", "src/controller_node.rs: new_with_node", "src/device_node.rs: new_with_node", "src/controller.rs: Drop for Controller", "src/device.rs: Drop for Device"]}
{"id": "C67", "title": "Request handlers are called exactly for the properties of permitted requests", "statement": "Each request handler of a node is called once for every property in the property list of each received request that addresses an object of the node and is permitted by the object's properties, in order, with that object, service and property; it is called for no other message, and the application state changes only by such calls.", "quantifier": "every node, message and history of received messages, every list of handlers (what the recorded calls are: if the other handlers leave the record alone and those called before leave the object alone)", "why_tests_cant": "Must hold for every message and every history of messages, whatever handlers are registered.", "anchors": ["src/node.rs: message_received", "src/request_handler.rs: property_request_received", "src/object.rs: message_received", "doc/device_inside.md"]}
{"id": "C68", "title": "The shipped example light follows and reports its operating status", "statement": "For the example device examples/monolight: a remote write of 0x30/0x31 to property 0x80 of object 029101 switches the light on/off and the property then has that value; every other message leaves light and properties unchanged; the reported operating status agrees with the light; the status can be read; no received message makes its request handler panic.", "quantifier": "every state the program can reach by starting, stopping and receiving messages, and every further message or history of messages", "why_tests_cant": "The agreement of two pieces of state must survive every history of messages.", "anchors": ["examples/monolight/monolight.rs: MonoLight, property_request_received", "src/node.rs: message_received", "src/request_handler.rs: property_request_received"]}
{"id": "C69", "title": "The post tool sends exactly the message its command line describes", "statement": "For every command line `uechopost ADDRESS OBJECT ESV (EPC EDT)*` the tool sends to port 3610 of ADDRESS, if that node was discovered, exactly one frame with that object as destination, that service and exactly those properties; hexadecimal arguments mean their value in either case; `-v` does not change what is sent; a malformed command line prints the usage and sends nothing, and never crashes the tool.", "quantifier": "every command line, every set of discovered nodes and every state of the tool's controller", "why_tests_cant": "The argument grammar and the discovered nodes form an infinite input space; a test covers single command lines.", "anchors": ["bin/uechopost/uechopost.rs: main", "src/controller.rs: post_message, send_message", "src/util/bytes.rs: Bytes::to_u32"]}
{"id": "C70", "title": "The search and benchmark tools read exactly the wanted properties of what was discovered", "statement": "For every history of the controller, `uechosearch` posts to each discovered node one read of the manufacturer code and one read of each mandatory-read property (with -a: each property) of the standard object of each announced code, and nothing else; `uechobench` posts the same without the manufacturer code, as often as asked; each post is the corresponding read frame; the manufacturer name printed is the one in the standard table; no response and no command line crashes the tools.", "quantifier": "every history of received messages and calls of the controller, every iteration order of the property maps, every response and every command line", "why_tests_cant": "What is requested depends on the whole discovery history and on unspecified hash map orders; responses are chosen by remote devices.", "anchors": ["bin/uechosearch/uechosearch.rs: main", "bin/uechobench/uechobench.rs: main", "src/controller.rs: nodes, post_message", "src/database.rs: find_manufacture"]}
{"id": "C71", "title": "A remote node reflects exactly the calls made on it", "statement": "A remote node built by the application has the address set last and exactly the objects added, in order; looking up an object finds the first one added with that code. Two remote nodes are equal exactly if IP address and port agree, equality is an equivalence and consistent with the hash; cloning preserves address and objects. Messages sent or posted to it go to port 3610 of the IP address set last.", "quantifier": "every sequence of calls on a remote node, every pair and triple of remote nodes, every hash map iteration order (cloning: objects whose properties are filed under their own codes)", "why_tests_cant": "Sequences of calls and contents of objects are unbounded; the contract between equality and hashing is about all pairs of values.", "anchors": ["src/remote_node.rs: RemoteNode::set_addr, add_object, find_object, clone, eq, hash", "src/controller_node.rs: send_message, post_message"]}
{"id": "C72", "title": "Traffic dies out: no reply storms between any number of nodes", "statement": "On a network of any number of nodes and controllers, without further calls by the applications, every execution comes to rest: there is no infinite sequence of deliveries and observer calls. Whatever is transmitted meanwhile carries a response service and belongs to a request that a receiver thread has received; a response or notification never makes anybody transmit. The number of replies is at most the number of times a receiving server calls its node for a request under way at the beginning.", "quantifier": "every number of hosts, all contents, every interleaving of receiver threads, all loss, delay and reordering of datagrams, any copies made by the network", "why_tests_cant": "Termination of all interleavings of unboundedly many hosts and datagrams; a test observes one finite run.", "anchors": ["src/transport/unicast_server.rs: start", "src/transport/multicast_server.rs: start", "src/transport/notify_manager.rs: notify", "src/node.rs: message_received", "src/controller_node.rs: message_received"]}
{"id": "C73", "title": "A controller lists only objects that exist", "statement": "Whatever any number of nodes and controllers do and whatever the network loses, delays, reorders or repeats, Controller::nodes() of any controller lists only nodes of the network, each under an address of one of its interfaces, and for each only objects that node has.", "quantifier": "every finite execution of any number of hosts (applications, receiver threads, datagrams) starting from new nodes", "why_tests_cant": "Interleavings of any number of threads and any network behaviour; a phantom entry needs a particular message at a particular time.", "anchors": ["src/controller_node.rs: message_received", "src/remote_node.rs: parse", "src/node.rs: message_received", "src/message.rs: NodeProfileMessage"]}
{"id": "C74", "title": "Searching for an object finds the nodes that have it", "statement": "After Controller::search_object(code) every reachable node that has an object of that code answers so that the controller lists it, and nodes without such an object stay silent.", "quantifier": "every controller, object code, node state and outcome of the transmission", "why_tests_cant": "Quantifies over every object code and node state; tests search for the node profile only.", "anchors": ["src/controller.rs:Controller::search_object", "src/controller_node.rs:ControllerNode::search_object", "src/node.rs:Node::message_received"]}
{"id": "C75", "title": "A search discovers every reachable node", "statement": "On a network of any number of nodes in any state in which no observer has panicked so far (C82), if nothing is lost and the applications do not hold the nodes' and the controller's locks meanwhile, then after Controller::search() every execution comes to rest, and then Controller::nodes() lists every running node that received the search (nodes having at most 84 devices, as many as a search answer can name), with exactly the objects that were added to it, whatever the interleaving of the receiver threads and the order and repetition of the answers.", "quantifier": "every number of hosts, every honest history before the search, every interleaving and duplication afterwards", "why_tests_cant": "Liveness over all interleavings of any number of receiver threads and hosts; tests run one schedule with one or two nodes on one machine.", "anchors": ["src/controller.rs:Controller::search", "src/controller.rs:Controller::nodes", "src/controller_node.rs:ControllerNode::message_received", "src/node.rs:Node::message_received", "src/transport/unicast_server.rs:UnicastServer::start", "src/transport/multicast_server.rs:MulticastServer::start"]}
{"id": "C76", "title": "A delivered response answers a request the node made", "statement": "On a network of any number of nodes, a message that the channel returned by post_message yields was sent by some node, not to another node, and answers a request which the posting node had sent before: it was sent by the node that got the request, to its sender, with the request's transaction ID, with source and destination object exchanged and with a response service for the request's service; and the request answered is the last one the node sent with an automatic transaction ID.", "quantifier": "every number of hosts, every interleaving, loss, duplication, delay and reordering of datagrams, every application behaviour satisfying the stated rule", "why_tests_cant": "Ranges over all interleavings of any number of hosts and over an unreliable network; a test sees a few schedules on one machine, where no datagram is lost or late.", "anchors": ["src/node.rs: post_message, is_last_message_response, send_post_reopnse, message_received"]}
{"id": "C77", "title": "A stopped transport is silent, and stopping ends", "statement": "Once transport::Manager::stop (or dropping, or a start that fails) has returned, no datagram is received and no observer is called until start is called again, however the receiver threads were scheduled. stop returns true; it ends after a bounded number of steps of its own and of the threads it waits for (per server six and one per observer); it panics only if a receiver thread has panicked, and then the servers it had not reached go on receiving.", "quantifier": "every interleaving of the thread that calls start, stop and add_observer with all receiver threads, every set of interfaces and bind outcome, every sequence of socket events, any number of observers and servers", "why_tests_cant": "a test sees one schedule; the claim is about every interleaving of stop flags, time-outs, datagrams in flight and observers being called", "anchors": ["src/transport/manager.rs: Manager::start, Manager::stop, Drop", "src/transport/unicast_manager.rs: UnicastManager::start, stop", "src/transport/multicast_manager.rs: MulticastManager::start, stop", "src/transport/unicast_server.rs: UnicastServer::start, stop", "src/transport/multicast_server.rs: MulticastServer::start, stop"]}
{"id": "C78", "title": "Datagrams reach the observers in order and exactly once, under every schedule", "statement": "For each server, the observers are called for one message after the other, each observer registered at that moment once and in the order of registration; the messages are those of the well-formed datagrams received on that socket, in order, with nothing added; whenever the thread waits for the next datagram, or has ended after stop, none has been left out. An observer whose add_observer has returned is called for every later message of every server until the transport is started again. When a call of add_observer returns, the calls owed for messages taken up before it began have been made (unless the thread that owes them has panicked): nobody is registered in the middle of a delivery.", "quantifier": "every interleaving of the calling thread with all receiver threads, every sequence of socket events on every server, any number of observers", "why_tests_cant": "the claim is about all schedules of registration, reception and stop, and all sequences of datagrams", "anchors": ["src/transport/unicast_server.rs: UnicastServer::start", "src/transport/multicast_server.rs: MulticastServer::start", "src/transport/notify_manager.rs: NotifyManager::notify, add_observer", "src/transport/manager.rs: Manager::add_observer"]}
{"id": "C79", "title": "A remote operation takes effect at one moment between request and response", "statement": "On a network of any number of nodes whose applications leave answering to the library: whenever an answer is on the wire, there was one moment, after the request it answers was sent, at which the answering node either carried out the whole request (all writes of the request stored, all attributes and all other objects as before, the answer listing the values read at that same moment) or refused the whole request without changing any object, and the answer says which. So when a read response is delivered through post_message, all its values were held together at one moment between the sending of the request and the delivery; when a write response is delivered, there was such a moment at which the object held all the data written. Requests are not carried out at most once: a datagram the network duplicates is carried out twice.", "quantifier": "every number of nodes, every interleaving of receiver threads and applications, every behaviour of the network (loss, delay, reordering, duplication), all request handlers, all histories", "why_tests_cant": "atomicity is a statement about all interleavings of requests from several nodes and local calls; a test sees one of them", "anchors": ["src/node.rs: Node::message_received, impl Observer", "src/object.rs: Object::message_received", "src/controller.rs: Controller::post_message", "src/transport/unicast_server.rs: UnicastServer::start"]}
{"id": "C80", "title": "from_bytes returns the readable front of any byte string", "statement": "Message::from_bytes returns, for every byte string of at least twelve bytes that starts with 0x10 0x81, a message with the header fields of the bytes and with the longest list of complete properties at their front, at most as many as announced (for the write-read services both lists, the second only if the first is complete), and nothing else; it panics only if a complete first list of a write-read service ends the bytes. For other byte strings at most the frame format and TID are taken. The caller cannot tell: a frame cut off inside a property gives exactly the message of the shorter well-formed frame.", "quantifier": "all byte strings of any length", "why_tests_cant": "the claim is about every malformed input, of which there are unboundedly many", "anchors": ["src/protocol/message.rs: Message::from_bytes, Message::parse, parse_header, parse_format1_data", "src/protocol/property.rs: Property::parse"]}
{"id": "C81", "title": "A database the application extends finds what was added", "statement": "An application may build or take a `StandardDatabase` and call `add_manufacture` and `add_object` on it. After any sequence of such calls, `find_manufacture(code)` returns the first manufacturer with exactly that code, and `find_object(code)` the first object of the same class with instance byte 0, in the order of the original entries and then of the calls; an object added for a class the database did not have is found under every instance code of the class. No call loses or changes an entry.", "quantifier": "all databases, all sequences of add_manufacture and add_object calls, all codes looked up", "why_tests_cant": "the histories of calls and the codes are unbounded; a test looks up a few codes in the built-in table", "anchors": ["src/database.rs: StandardDatabase::add_manufacture, find_manufacture, add_object, find_object", "src/manufacture.rs: Manufacture"]}
{"id": "C82", "title": "Faults are contained in their node: receiver threads end only from two kinds of datagrams", "statement": "On a network of any number of hosts, whatever the other hosts and their applications do, whatever is sent and whatever the request handlers do (short of a panic in a request handler or an observer of the host's own application), each receiver thread of a running node whose objects have valid property codes keeps taking datagrams until the application stops that node, unless a datagram on which the decoder panics (service 0x6E, 0x7E or 0x5E cut after its first property list) arrives at the socket of that very thread, or a thread of the same node receives an error response of service 0x5E that carries the last transaction ID of the node. A datagram of the first kind ends only the thread it occurs in. One of the second kind ends the whole node: its other threads end at the next message they receive, and the node never answers a request and never delivers a response again, not even after a restart. All other nodes go on in either case. No call but stop ends a thread.", "quantifier": "all networks, all executions (interleavings of applications, threads, losses, duplications), all hosts and threads, all datagrams", "why_tests_cant": "executions, hosts and datagrams are unbounded; a test sends a few malformed datagrams to one node", "anchors": ["src/transport/unicast_server.rs: UnicastServer::start", "src/transport/multicast_server.rs: MulticastServer::start", "src/transport/notify_manager.rs: NotifytManager::notify", "src/node.rs: Observer for Arc<Mutex<Node>>"]}
{"id": "C83", "title": "The objects of a host behave like shared variables accessed one request at a time", "statement": "Take a host whose request handlers do not modify objects and decide by service, property and object definition, and any execution of any number of hosts on a network that loses, delays, reorders and duplicates datagrams, in which applications leave answering to the library and the host's own application may set property values and send anything but does not add or restructure objects, add handlers, or start or stop the node. Then all requests the host's receiver threads process and all values its application sets can be put into one order such that (1) each request stands after the datagram carrying it was sent and before its answer is sent, and each local set stands at the time it is made; (2) every answer the host sends is exactly what a map of values accessed one operation at a time in this order would answer (refusals included); (3) the values held at any time are those of that map. In particular, if all writes to a property carry the same data, then once a write was confirmed every read requested afterwards returns that data: no stale reads.", "quantifier": "all network executions (any hosts, interleavings of receiver threads and applications, losses and duplicates), all objects and properties except the property maps 0x9D-0x9F, all positions in the execution", "why_tests_cant": "linearizability quantifies over all concurrent schedules of several receiver threads, applications and the network; a test observes a few of them.", "anchors": ["src/node.rs: message_received", "src/transport/unicast_server.rs: start", "src/transport/multicast_server.rs: start", "src/transport/notify_manager.rs: notify", "src/device_node.rs: set_property"]}
{"id": "C84", "title": "A posted request gets its answer", "statement": "On a network that loses nothing, with no other traffic and no other calls of applications meanwhile, a node or controller posts a read (0x62) or write-with-response (0x61) request without a TID of its own to a running node, on another host or on its own (as the test of the project does), which has the addressed object (both nodes having had no fault so far, C82; objects have valid codes). Provided that the 16-bit TID counter does not wrap to 0 with this request (C28), no message exceeds a frame or the receive buffer, and no receiver thread finds a node's mutex taken when it hands over a message (C51), the caller receives through the channel returned by the post exactly one message, and that message is what the asked node sent to answer this request. This holds whatever the request handlers do, however the receiver threads of both hosts are scheduled, and however often and in whatever order the network repeats the datagrams; the network always comes to rest after finitely many steps. If the handlers do not modify objects and decide by service, property and definitions, the answer is a success exactly when the object's access rights and a handler allow the request; a read response carries the values the object had (property maps 0x9D to 0x9F, which are computed, excepted), a write response confirms the properties, and afterwards the object holds the written values, as if the request had been carried out once.", "quantifier": "all networks at rest, pairs of hosts, requests without own TID, objects, handlers, schedules, duplications and delays of datagrams, property values, both build profiles", "why_tests_cant": "the answer has to arrive under every interleaving of receiver threads on both sides and every pattern of duplicated and delayed datagrams; a test observes one run, usually on the loopback interface", "anchors": ["src/node.rs: post_message, message_received, is_last_message_response, send_post_reopnse", "src/controller.rs: post_message", "src/transport/unicast_server.rs: start, send", "src/transport/manager.rs: send"]}
{"id": "C85", "title": "Remote calls made one after the other behave like calls of local objects", "statement": "Let nodes run on a network that loses no datagram and delivers none to a wrong host, but delays, reorders and repeats datagrams, with no other traffic; objects have valid codes, and request handlers do not modify objects and decide by service, property and object definition; no receiver thread finds a node's mutex taken when it hands over a message (C51). Any hosts post any number of read and write requests to objects of any hosts, also their own, one after the other, each only after everything the previous one caused has come to rest, and applications set values of their own objects in between. No message exceeds the sizes of a frame or the receive buffer, and no host posts so many requests that its 16-bit transaction number wraps around. Then each call receives exactly one answer, on the channel it returned; the answer is a success exactly if the definition of the object allows the request and a handler approves of it (or there are none), otherwise the error of its service; a read shows the values the object has if it is seen as a map of values to which all earlier calls to that host and all values set by its application were applied in order; a write confirms the properties; and after the session the objects hold the values of that map. In particular, a value that was written with confirmation is read by every host until it is written again.", "quantifier": "all builds, hash orders, networks and hosts, all sessions of any length with any messages, objects, handlers and values, all interleavings of receiver threads, delays and repetitions inside each call", "why_tests_cant": "A test runs one session with one schedule; any number of duplicates of a request and of its answer may be taken in any order inside each call.", "anchors": ["src/node.rs: post_message, message_received, is_last_message_response, send_post_reopnse", "src/device_node.rs: set_property", "src/controller.rs: post_message", "src/transport/manager.rs: send", "src/protocol/message.rs: from_bytes, bytes"]}
{"id": "C86", "title": "Remote calls made at the same time are linearizable, and nobody waits in vain", "statement": "Let nodes run on a network that loses no datagram and delivers none to a wrong host, but delays and reorders datagrams and may repeat them, with no other traffic; objects have valid codes, and request handlers do not modify objects and decide by service, property and object definition; no receiver thread finds a node's mutex taken when it hands over a message (C51). Any hosts make any number of read and write calls (post_message) to objects of any hosts, also their own, at any time, also while calls of others are under way; each application waits for the answer to its last call before it makes another. Applications set values of their own objects at any time. No message exceeds the sizes of a frame or the receive buffer, and no host makes so many calls that its 16-bit transaction number wraps around. Then for every host there is one order of all calls that take effect on its objects and all values its application sets, such that each call takes effect after it was made and before its answer arrives, each value when it is set, and, if the network repeats nothing, no call more than once; every answer says what the object, seen as a map of values to which everything before in this order was applied, says (success exactly if the definition allows the request and a handler approves or there is none; the values read; the properties written); and the objects hold the values of that map. What has come out of the channels of a host is at any time one answer for each of its first calls, in the order of the calls; when the network has come to rest, one for every call. In particular, if the network repeats nothing, a read made after the confirmation of a write has arrived shows what was written, unless somebody else's write or set overlaps with the time between.", "quantifier": "all builds, hash orders, networks and hosts, all executions of any length with any interleaving of calls, receiver threads and local sets, any delays, reorderings and repetitions, all messages, objects, handlers and values", "why_tests_cant": "The number of interleavings of concurrent calls, of which two of different hosts may even carry the same transaction number, is unbounded; linearizability is a statement about all of them, and so is the absence of lost answers.", "anchors": ["src/node.rs: post_message, message_received, is_last_message_response, send_post_reopnse", "src/device_node.rs: set_property", "src/controller.rs: post_message", "src/transport/manager.rs: send", "src/protocol/message.rs: from_bytes, bytes"]}
{"id": "C87", "title": "A protocol property decodes, compares and starts out as documented", "statement": "protocol::Property::parse accepts a byte string exactly if it begins with a code, a length and that many data bytes, and then the property has this code and this data, whatever it held before; it never panics; what it refuses leaves the property unchanged or with no data, never with data of an incomplete property. equals is equality of code and data. A new property has code 0 and no data, and setting code and data gives the property built from them; setting one of the two leaves the other alone.", "quantifier": "every property, every byte string", "why_tests_cant": "All byte strings of all lengths and all previous contents of the property.", "anchors": ["src/protocol/property.rs: Property::new, from, set_code, set_data, parse, equals, clone"]}
{"id": "C88", "title": "Data types and enumerated values of standard properties are usable", "statement": "PropertyType::from_string maps each of the twelve type words of the appendix to its own type and every other string to Unknown. For every property of every object of the standard database and of every new device, data_type() is one of those words, only properties of type State have enumerated values, and every enumerated value can be stored with set_int_data(value, capacity()), is read back by data_as_int() and is then found by find_enum().", "quantifier": "every string; every object code looked up, every property and every enumerated value of it; every new device, in every build and for every hash iteration order", "why_tests_cant": "the table has hundreds of properties and thousands of enumerated values in ninety classes; a test samples a few, and whether a value fits the declared capacity has to hold for each one", "anchors": ["src/property.rs:PropertyType::from_string", "src/property.rs:Property::set_int_data", "src/property.rs:Property::data_as_int", "src/property.rs:Property::find_enum", "src/database_mra_objects.rs:add_standard_property", "src/database_mra_objects.rs:init_objects"]}
{"id": "C89", "title": "Calls made by several threads take effect one at a time", "statement": "When several threads use a host at once - application threads calling methods of Device and Controller or working on the locked node, receiver threads delivering messages to the node and to the controller - every call behaves as if it had happened at one instant between its invocation and its return: there is an order of the calls, compatible with the order in which calls returned before others were made, in which executing them one after the other gives every call the result it returned, and the node, the list of remote nodes and the transmitted messages that the threads have produced together. A call that found the mutex taken (send_message, delivery of a message) returns without an effect; this happens only to calls that overlap with another call that uses the same node or controller. Two calls that use the node, or two that use the controller, are never in the middle of their work at once. Whenever a call is under way, some thread can go on, and no call keeps a mutex for ever. A call that panics poisons the mutex, and only then do later calls on it panic; after that no call that needs the mutex takes effect.", "quantifier": "every number of threads, every sequence of calls by each, every interleaving of their individual accesses to the shared data, every way the code of a call splits into accesses, every initial host", "why_tests_cant": "the number of interleavings of the accesses of concurrent calls is astronomical and the scheduler decides which one a test sees; a lost update shows in few of them", "anchors": ["src/node.rs:Observer for Arc<Mutex<Node>>", "src/device_node.rs:DeviceNode", "src/controller_node.rs:ControllerNode", "src/controller.rs:Controller", "src/device.rs:Device"]}
{"id": "C90", "title": "Results of the transport's calls do not depend on its receiver threads", "statement": "However the receiver threads are scheduled and whatever they receive in the meantime, and as long as no call panics: the calls start, stop and add_observer of transport::Manager return what they return on a manager whose calls are single uninterrupted steps, and between calls it has the same sockets with the same observers. So results and sockets depend only on the calls and on what the operating system answered to bind and join. A call panics only if a receiver thread has panicked before, or if it is start and an interface has an IPv6 address.", "quantifier": "every sequence of calls, every set of interfaces and outcome of bind and join, every interleaving with the receiver threads, every sequence of socket events", "why_tests_cant": "start and stop create and join threads that run concurrently with the rest of the call; a test sees one schedule and one set of interfaces", "anchors": ["src/transport/manager.rs:Manager::start", "src/transport/manager.rs:Manager::stop", "src/transport/manager.rs:Manager::add_observer", "src/transport/unicast_manager.rs:UnicastManager::start", "src/transport/multicast_manager.rs:MulticastManager::start", "src/transport/unicast_server.rs:UnicastServer::stop", "src/transport/multicast_server.rs:MulticastServer::stop"]}
{"id": "C91", "title": "Several controllers and devices can share a node", "statement": "Any number of Controller and Device values and observers made on one node (Controller::new_with_node, Device::new_with_node, add_observer) work independently of each other: each controller lists exactly the nodes whose messages it was given, each hears every received message exactly once, a request is answered once, a response reaches the controller that posted the request, stopping one leaves the others running, and the node behaves as it would with one of them.", "quantifier": "all numbers and orders of controllers, devices and observers, all interleavings of their calls and of received messages", "why_tests_cant": "the number of owners and the interleavings are unbounded; tests use one controller per node", "anchors": ["src/controller.rs: Controller::new_with_node", "src/controller_node.rs: ControllerNode::new_with_node", "src/device.rs: Device::new_with_node", "src/device_node.rs: DeviceNode::new_with_node", "src/transport/notify_manager.rs: NotifytManager::notify"]}
{"id": "C92", "title": "Initialising the logger is safe from any threads, and afterwards every record is written", "statement": "Logger::init may be called any number of times, by any threads at the same time, while other threads log records and install loggers of their own with log::set_logger. If the application does not install a logger of its own, no call of Logger::init panics. Once some call of Logger::init has returned, every record that any thread logs from then on, of any level from error to trace, is written, by the library's logger. The library's logger never replaces a logger of the application nor the other way round: all records that are written are written by the same logger; once the application has installed its own, every call of Logger::init panics. No call waits forever: as long as a call is under way some thread can go on, and without new calls all calls end after finitely many steps.", "quantifier": "all executions of any number of threads that call Logger::init, log::set_logger and the log macros in any order and interleaving; all levels and texts", "why_tests_cant": "The interleavings of threads at the steps of Once, set_logger and the macros cannot be enumerated by tests, and the state is global to the process, so that a test can see only one history.", "anchors": ["src/log/logger.rs: Logger::init, Logger::log, Logger::enabled, Logger::shared, Logger::set_level, INIT, LOGGER"]}
{"id": "C93", "title": "Logging changes nothing, and the log tells what went over the wire", "statement": "For every history of a transport (start, stop, add_observer, send, notify, has_interface, and events at its sockets): the maximal log level, which may change at any time, has no influence on results, transmitted datagrams, messages handed to observers, panics, and the state afterwards. If lines of level info are logged, then the SEND and MCST lines that are not followed by the complaint about a failure are, in order, exactly the datagrams transmitted, each with the interface address, the destination and the bytes in hexadecimal; the RECV lines are, in order, exactly the messages handed to the observers, with their source; and each datagram that a running receiver thread gets leaves exactly one line (with its bytes if it was rejected), unless it kills the thread (C03). The log at a lower level is the complete log without the lines of higher levels.", "quantifier": "all histories of a transport of any length, all log levels at each step, all outcomes of binds, joins, sends and receives, all messages and datagrams", "why_tests_cant": "Arguments of log macros are evaluated only if the level is enabled, and some of them can panic; tests run at one level, on the outcomes their operating system happens to give.", "anchors": ["src/transport/unicast_server.rs: UnicastServer::send, UnicastServer::bind, UnicastServer::start", "src/transport/multicast_server.rs: MulticastServer::notify, MulticastServer::bind, MulticastServer::start", "src/transport/udp_socket.rs: UdpSocket::bind, UdpSocket::local_addr, UdpSocket::send_to, UdpSocket::recv_from, UdpSocket::join_multicast_v4, UdpSocket::join_multicast_v6", "src/transport/unicast_manager.rs: UnicastManager::send, UnicastManager::has_interface", "src/protocol/message.rs: Message::fmt"]}
{"id": "C94", "title": "A panicking request handler leaves no half-done request", "statement": "If a request handler of the application panics while a node processes a request, then the request has had no effect: the node (objects, transaction counter, pending request, transport) is exactly as before, nothing has been sent, not even for the properties the handlers had accepted already; only handlers that were asked about this request, and their application state, can differ. A message makes a node panic only for one of three reasons: the library itself panics on it (C57), a handler of that node panics on one of the request's properties, or a handler of that node has panicked before and its mutex is still poisoned. Until the application clears the poison of the node's mutex the node does not change, puts out nothing, and every call on it panics; clearing it restores the node as it was before the request. Nodes that share no handler object with it are not affected. As long as no handler panics, handlers that can panic make no difference.", "quantifier": "all nodes and processes with any number of nodes, all handler objects (arbitrary code, any registration), all messages, all sequences of receptions, calls, registrations and clearings of poison", "why_tests_cant": "A panic can come from any handler at any property of any request; a test can only try some points. That nothing was half written, and that no other node is affected in any later history, ranges over all of them.", "anchors": ["src/request_handler.rs: RequestManager::property_request_received", "src/request_handler.rs: RequestHandlerObject", "src/node.rs: Node::message_received", "src/node.rs: impl Observer for Arc<Mutex<Node>>", "src/node.rs: Node::add_request_handler"]}
{"id": "C95", "title": "Sockets are neither leaked nor closed too early", "statement": "At every point of every execution of a transport the open sockets are exactly those of the servers in its two vectors: a socket is kept open by its server and by the receiver thread while that runs, and by nothing else. Hence after stop has returned, or a start has failed, no socket is open until the next start; and never are more sockets open than one for every address offered for multicast and one for every address offered for unicast, however often start, stop and failing starts follow each other. A stop that panics (because a receiver thread has panicked) can be repeated: it panics at most once for every panicked thread, and when it returns every socket is closed. Dropping a transport manager returns if no receiver thread has panicked, panics if one has, and aborts the process if two or more have.", "quantifier": "all executions of a transport (any sequence of start, stop and addObserver with any interfaces and results of bind, interleaved arbitrarily with any receiver threads and datagrams), all points of them, and all combinations of panicked threads", "why_tests_cant": "A leaked descriptor shows only after many restarts, and whether one is closed depends on which of the server and its thread lets go last, on failing binds and on threads that have panicked.", "anchors": ["src/transport/manager.rs: start, stop, Drop", "src/transport/unicast_manager.rs: start, stop, Drop", "src/transport/multicast_manager.rs: start, stop, Drop", "src/transport/unicast_server.rs: start, stop, Drop", "src/transport/multicast_server.rs: start, stop, Drop", "src/transport/udp_socket.rs: UdpSocket, close"]}
{"id": "C96", "title": "start and stop end in bounded time", "statement": "Whatever the receiver threads do and whatever datagrams arrive, a stop of the transport ends within a bound that depends only on what is there when it is called: per server one read timeout (500 ms), one call of each observer registered on that server and five other steps of bounded length, plus three more such steps; a start ends within the time to bind each offered address, plus (if it fails) the time to stop what is there. No such call ever gets stuck: while it goes on, the caller or a receiver thread can take a step. The bound is reached: two idle servers make stop last exactly one second. Binding one socket makes three attempts, sleeps 100 ms after each failed one, succeeds if and only if one of the three does, and so sleeps at most 300 ms.", "quantifier": "all executions of a transport with any interleaving of receiver threads, any datagrams, timeouts and failures, any observers (including panicking ones), any lengths of the single steps within given limits, and any results of the attempts to bind", "why_tests_cant": "A test measures one schedule on one machine; that no sequence of arriving datagrams keeps a thread from seeing the stop flag is a statement about all schedules and all arrival times.", "anchors": ["src/transport/udp_socket.rs: bind, UDP_SOCKET_BIND_RETRY_MAX, UDP_SOCKET_BIND_SLEEP_MSEC", "src/transport/unicast_server.rs: start, stop", "src/transport/multicast_server.rs: start, stop", "src/transport/manager.rs: start, stop"]}
{"id": "C97", "title": "Requests that are sent are carried out", "statement": "On a network at rest, a request of any kind (also one that asks for no answer) that a node or controller sends or posts to an address of a running host, another or its own, is carried out there: nothing else happens to the objects and handlers of that host than that its node processes the request, at least once, and as often as the network delivers copies of it; no interleaving of threads, no order of arrival and no answer going around on the network adds or suppresses anything. If the handlers there do not change objects and decide by service, property and definitions, the addressed object then has exactly the values the request writes if its attributes allow it and a handler approves, and otherwise the values it had. In particular the example light is on or off as the last order another host sends says.", "quantifier": "all networks at rest with any number of hosts, all messages with a request service that fit into a frame, all four ways to send, all handlers, all interleavings of receiver threads, all orders of arrival and duplications by a network that does not lose datagrams", "why_tests_cant": "Whether a fire-and-forget request is carried out under every schedule, with duplicated datagrams and with answers and notifications on the way to third hosts, is a statement about all executions of several processes.", "anchors": ["src/node.rs: send_message, post_message, message_received, impl Observer for Arc<Mutex<Node>>", "src/controller.rs: send_message, post_message", "src/transport/unicast_server.rs: send, start", "src/request_handler.rs: RequestHandler", "examples/monolight/monolight.rs: MonoLight, property_request_received"]}
{"id": "C98", "title": "Notifications only inform", "statement": "On a network at rest, a notification or other response (of any service but 0x5E, for which see C01 and C57) that an application sends out, to all nodes or to one, only informs: when the network is at rest again, at every host each observer of the application has been called exactly once per registration for each copy delivered to a running receiver thread it is registered with, with the message that was sent and the address the copy came from, and for nothing else; no node has sent another datagram; and no object, no request handler and no state of a handler of any node has changed; no observer has panicked, and every node keeps its sockets and registrations, so that the network is fit for the next message.", "quantifier": "all networks at rest with any number of hosts and registered observers, all response messages that fit into the receive buffer, all ways to send them (notify, announce_property, send_message of node and controller), all interleavings of receiver threads, all losses on the way to the network, duplications and orders of arrival", "why_tests_cant": "That nothing but the registered observers reacts to a notification, and each of them exactly once per copy under every interleaving of the receiver threads, is a statement about all executions of several processes.", "anchors": ["src/node.rs: notify, annouce_property, send_message, message_received, impl Observer for Arc<Mutex<Node>>", "src/controller.rs: send_message", "src/transport/notify_manager.rs: notify", "src/transport/unicast_server.rs: start", "src/transport/multicast_server.rs: start", "src/transport/observer.rs: Observer"]}
{"id": "C99", "title": "Announcements tell controllers exactly what the message lists", "statement": "On a network at rest, a message that describes a node (a read response or notification for the node profile) and that an application sends out tells the controllers exactly what it lists: when the network is at rest again, whatever the interleaving of the receiver threads and however often and in whatever order copies arrive, each controller (whose list has at most one entry per address) lists exactly one node for each address it heard the message from, with the node profile and exactly the objects that the instance lists (property 0xD6) of the message name, and its other entries are as before, in the same order. In particular, when the application of a node with at most 84 devices announces property 0xD6 of its node profile, every controller reached lists the node with exactly its devices. After any number of such messages sent one after the other by whatever hosts each controller lists, for each address it has heard one from, the objects of the last one heard, and for all other addresses the nodes it listed before. Every other notification or response leaves the lists of all controllers alone.", "quantifier": "all networks at rest with any number of hosts and controllers, all lists with one entry per address, all messages that fit into the receive buffer, all ways to send them (notify, announce_property, send_message of node and controller), all interleavings of receiver threads, all losses on the way to the network, duplications and orders of arrival; for the announcement all histories of the node and all devices", "why_tests_cant": "That a list is the same whatever the order in which threads of a controller take up copies of a message, and that nothing else is lost from it or appears in it, is a statement about all executions of several processes.", "anchors": ["src/controller_node.rs: message_received, replace_remote_node, send_message", "src/remote_node.rs: from_message", "src/node.rs: annouce_property, notify, send_message, message_received", "src/message.rs: Message", "src/transport/unicast_server.rs: start", "src/transport/multicast_server.rs: start", "src/transport/observer.rs: Observer"]}

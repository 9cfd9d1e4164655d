{"id": "C01", "title": "Module sets behave like finite sets of ports", "statement": "A ModuleId is a set of ports 0..=63. Adding, removing, merging, complementing, intersecting and subset-testing have exactly the set-theoretic meaning; building a one-port set from, setting, clearing or testing (is_set) a port >= 64 is refused with InvalidPort naming that port and leaves the set unchanged; contains, which cannot refuse, aborts exactly then.", "quantifier": "all 2^64 module sets, all port numbers 0..255, all pairs of sets", "why_tests_cant": "2^64 sets (2^128 pairs) cannot be enumerated; tests use a handful of masks.", "anchors": ["messages/src/module_id.rs: ModuleId::{is_set,set,clear,remove,merge,contains,is_subset,is_empty,all,empty}, BitAnd/BitOr/Not"]}
{"id": "C02", "title": "Port lists and module sets convert without loss", "statement": "Listing a module set gives its ports in strictly increasing order, each exactly once, and as many as the reported count. Building a set from any list of ports succeeds iff all are < 64, gives exactly the listed ports, and otherwise reports the first bad port. Building a set from its own listing returns the same set.", "quantifier": "all module sets; all finite lists of ports of any length", "why_tests_cant": "lists are unbounded and there are 2^64 sets.", "anchors": ["messages/src/module_id.rs: ModuleId::{from_index_iter,from_indices,to_indices,selected_transceiver_count,single}"]}
{"id": "C03", "title": "Merging per-module data keeps every datum on its module", "statement": "Merging two (set, data) pairs gives the union of the sets and, for every port in the union, the second pair's datum if the second covers the port, else the first's. No datum moves to another port, is lost or duplicated.", "quantifier": "all pairs of module sets, all data lists with one item per module", "why_tests_cant": "alignment depends on the interleaving of two arbitrary 64-bit masks.", "anchors": ["messages/src/module_id.rs: merge_module_data"]}
{"id": "C04", "title": "Removing, keeping and filtering per-module data keep alignment", "statement": "remove_module_data, keep_module_data and filter_module_data return exactly the ports not removed / kept / satisfying the predicate, and each surviving port keeps its own datum.", "quantifier": "all module sets, all aligned data, all predicates", "why_tests_cant": "any mask combination is possible; tests check a few.", "anchors": ["messages/src/module_id.rs: remove_module_data, keep_module_data, filter_module_data"]}
{"id": "C05", "title": "A validated MAC range is safe to use in full", "statement": "For every range accepted by MacAddrs::new, every address nth(n), n < count, exists, equals base + n*stride as a 48-bit number, keeps the base's 3-byte OUI, is unicast, and differs from every other address in the range; no arithmetic overflows.", "quantifier": "all base addresses, counts and strides (u8^6 x u16 x u8), all n", "why_tests_cant": "2^64 inputs; overflow corner cases are sparse.", "anchors": ["messages/src/mac.rs: MacAddrs::{new,nth}"]}
{"id": "C06", "title": "MAC range validation rejects exactly the unusable ranges", "statement": "MacAddrs::new rejects a range iff count or stride is zero, the base is multicast, or some address of the range would leave the base's OUI.", "quantifier": "all base addresses, counts and strides", "why_tests_cant": "the boundary cases are 1 in 2^24; a test only sees the ones its author thought of.", "anchors": ["messages/src/mac.rs: MacAddrs::new"]}
{"id": "C07", "title": "Iterating a MAC range yields exactly its addresses", "statement": "Iterating a validated MAC range yields nth(0), nth(1), .., nth(count-1) in order and then ends; nth(n) for n >= count gives nothing.", "quantifier": "all validated ranges, all iteration prefixes", "why_tests_cant": "unbounded interleaving of next() calls over 2^64 ranges.", "anchors": ["messages/src/mac.rs: MacAddrIter::next, MacAddrs::nth"]}
{"id": "C08", "title": "MAC ranges received from the wire cannot crash the host", "statement": "For every MAC range a peer can encode in a response, each nth(n) either yields an address or nothing; it never aborts.", "quantifier": "all byte strings decodable as a MAC range, all n", "why_tests_cant": "decoding bypasses the constructor's checks; tests only build ranges through the constructor.", "anchors": ["messages/src/mac.rs: MacAddrs (derived Deserialize), nth", "controller/src/controller.rs: Controller::mac_addrs"]}
{"id": "C09", "title": "Memory accesses are accepted iff they stay inside their page and size limit", "statement": "MemoryRead::new / MemoryWrite::new accept (page, offset, len) iff len is between 1 and the interface's limit (128 read / 4 write for SFF-8636, 8/8 for CMIS) and [offset, offset+len) lies inside the page's half of the 256-byte map (0..=127 lower, 128..=255 upper); otherwise they report an out-of-bounds error in preference to a size error. The accessors return the given page, offset and length.", "quantifier": "all pages, offsets and lengths of both interfaces, reads and writes", "why_tests_cant": "the accept/reject frontier over 4 x 65536 x pages is not sampled by tests.", "anchors": ["messages/src/mgmt/mod.rs: MemoryRead::new, MemoryWrite::new, verify_read, verify_write, MemoryPage", "messages/src/mgmt/cmis.rs: Page", "messages/src/mgmt/sff8636.rs: Page"]}
{"id": "C10", "title": "Upper pages are accepted iff the specification defines them", "statement": "sff8636::UpperPage::new accepts a page iff it is 0x00-0x21 or >= 0x80. cmis::UpperPage::new_banked accepts (page, bank) iff the page is defined, is a banked page and bank <= 3, reporting invalid page, invalid bank, unbanked page in this order. cmis::UpperPage::new_unbanked accepts a page only if it is defined.", "quantifier": "all page and bank bytes", "why_tests_cant": "documented exclusions are easy to omit from one of the constructors.", "anchors": ["messages/src/mgmt/cmis.rs: UpperPage::{new_unbanked,new_banked,is_valid_page,page_accepts_bank_number}", "messages/src/mgmt/sff8636.rs: UpperPage::new"]}
{"id": "C11", "title": "A large access splits into contiguous chunks covering it exactly", "statement": "When LargeMemoryAccess::build_many succeeds, the chunks are on the same page, contiguous and in order, start at offset, end at offset+len, and each is individually a valid access. For reads, and for CMIS writes, it succeeds iff the whole range lies inside the page's half (or is empty).", "quantifier": "all pages, offsets and lengths of both interfaces", "why_tests_cant": "chunk count and remainder depend on 65536 (offset,len) pairs per page; existing tests build MemoryRead even when they intend MemoryWrite.", "anchors": ["controller/src/large_access.rs: LargeMemoryAccess::build_many and its four impls"]}
{"id": "C12", "title": "Every in-bounds large SFF-8636 write can be split", "statement": "build_many for an SFF-8636 write succeeds for every in-bounds range, splitting into legal writes.", "quantifier": "all SFF-8636 pages, offsets and lengths", "why_tests_cant": "the existing test instantiates the read type only.", "anchors": ["controller/src/large_access.rs: impl LargeMemoryAccess<sff8636::Page> for MemoryWrite", "messages/src/mgmt/sff8636.rs: MAX_WRITE_SIZE"]}
{"id": "C13", "title": "Wire encoding of headers and messages round-trips", "statement": "For every header and every message of every variant, decoding the encoded bytes followed by arbitrary trailing bytes yields the same value and exactly the trailing bytes.", "quantifier": "all headers, all message bodies with all field values, all trailing byte strings", "why_tests_cant": "message values are infinite in practice (u64 ids and module sets); tests use one value per variant.", "anchors": ["messages/src/message.rs: Header, Message, MessageBody, HostRequest, SpResponse, ProtocolError, Status, ExtendedStatus, LedState", "messages/src/mgmt/mod.rs: Page, MemoryRead, MemoryWrite", "messages/src/mac.rs: MacAddrs"]}
{"id": "C14", "title": "Wire decoding is canonical", "statement": "Whenever a byte string decodes to a message with some remainder, re-encoding the message and appending the remainder gives the byte string back; so no two different byte strings denote the same message and nothing is read past the message.", "quantifier": "all byte strings of any length", "why_tests_cant": "requires quantifying over every byte string.", "anchors": ["messages/src/message.rs: Deserialize impls", "messages/src/mgmt/*: Deserialize impls"]}
{"id": "C15", "title": "Encoded messages fit their advertised buffers", "statement": "Every header encodes to exactly 10 bytes and every message body to at most the advertised maximum; header, message and 1024 bytes of payload fit in the maximum packet size.", "quantifier": "all headers and messages", "why_tests_cant": "maximum over all values, not a sample.", "anchors": ["messages/src/lib.rs: MAX_PAYLOAD_SIZE, MAX_PACKET_SIZE", "messages/src/message.rs: SerializedSize derives"]}
{"id": "C16", "title": "Hardware error lists decode one error per failed module", "statement": "Decoding the trailing error bytes of a response that names failed modules F yields, for a buffer of exactly |F| bytes, exactly |F| errors where the k-th byte gives the k-th failed port's error, unknown codes becoming Unknown with the raw byte recorded; a shorter buffer is rejected; with no failed modules the result is empty.", "quantifier": "all failed-module sets, all byte buffers", "why_tests_cant": "arbitrary masks and unknown future error codes.", "anchors": ["messages/src/message.rs: HwError, DeserializedErrors, Unknowns, deserialize_hw_errors", "controller/src/controller.rs: Controller::deserialize_hw_errors"]}
{"id": "C17", "title": "Excess trailing bytes never create extra errors", "statement": "Decoding hardware errors never yields more errors than there are failed modules, whatever trails the buffer.", "quantifier": "all failed-module sets, all buffers at least as long as the set", "why_tests_cant": "needs a buffer longer than the protocol requires, which no test sends.", "anchors": ["messages/src/message.rs: DeserializedErrors::new"]}
{"id": "C18", "title": "Merging two operation results keeps every outcome on its module", "statement": "ModuleResult::merge returns nothing iff the two results share a successful module or a failed module. Otherwise a module is failed iff it failed in either, successful iff it succeeded in one and failed in neither, and its datum or error is the one it had in the input it came from.", "quantifier": "all pairs of well-formed results over all module sets and any data", "why_tests_cant": "four interleaved masks with aligned data.", "anchors": ["controller/src/results.rs: ModuleResult::merge, FailedModules::merge"]}
{"id": "C19", "title": "Appending read results concatenates per module", "statement": "ModuleResult::append returns nothing iff failures overlap or the second mentions a module not successful in the first; otherwise each module successful in both has its two data concatenated in order, each module failing in the second becomes failed with that error, earlier failures are kept, and nothing else changes.", "quantifier": "all pairs of well-formed results", "why_tests_cant": "alignment of three masks.", "anchors": ["controller/src/results.rs: ModuleResult::append"]}
{"id": "C20", "title": "Looking up a module in a result returns that module's datum or error", "statement": "nth(i) returns the datum of port i iff port i succeeded, nth_err(i) the error of port i iff it failed, and iterating lists exactly the (port, datum) pairs in port order; a result built with success() requires exactly one datum per module.", "quantifier": "all well-formed results, all ports", "why_tests_cant": "positional lookup in a bitmask.", "anchors": ["controller/src/results.rs: ModuleResult::{nth,nth_err,iter,error_iter,success,is_success}, FailedModules::{nth,iter}"]}
{"id": "C21", "title": "Each accepted request is answered exactly once and in order", "statement": "For any sequence of submitted requests, received packets, receive errors, send errors and timer ticks, the request loop answers requests in submission order, never answers a request twice, never answers one it did not accept, and holds at most one unanswered request.", "quantifier": "all finite event histories of any length, all packet contents", "why_tests_cant": "requires all interleavings of network, timer and caller events.", "anchors": ["controller/src/ioloop.rs: IoLoop::run and handlers", "controller/src/lib.rs: NUM_OUTSTANDING_REQUESTS"]}
{"id": "C22", "title": "A response is delivered only to the request with its message id", "statement": "If a request is answered with a response, then a packet with kind SpResponse, the request's own message id and a well-formed SpResponse body arrived while the request was outstanding, and the answer is that packet's message; stale, duplicate or foreign packets never complete it successfully.", "quantifier": "all event histories and packet contents", "why_tests_cant": "delayed duplicates of earlier responses can arrive at any time.", "anchors": ["controller/src/ioloop.rs: handle_sp_response, fail_matching_outstanding_request"]}
{"id": "C23", "title": "Retransmission is bounded and byte-identical", "statement": "A request is transmitted at most max(1, n_retries) times, every transmission carries the same bytes, and it fails with MaxRetries(n) only after exactly n = max(1, n_retries) transmissions.", "quantifier": "all event histories, all retry limits including none", "why_tests_cant": "history-dependent counter; off-by-one only visible over many ticks.", "anchors": ["controller/src/ioloop.rs: send_outgoing_request, run (tick branch)", "controller/src/config.rs: n_retries"]}
{"id": "C24", "title": "Every request completes when retries are limited", "statement": "With a retry limit N, any outstanding request is answered by at most max(1,N) timer ticks after it was accepted, whatever else arrives.", "quantifier": "all event histories with enough ticks, all limits", "why_tests_cant": "liveness over all schedules.", "anchors": ["controller/src/ioloop.rs: run"]}
{"id": "C25", "title": "Only sustained garbage fails a request", "statement": "Without a matching reply, a request fails with MaxFaultMessages only at a tick after at least 5 faulty messages arrived while it was outstanding; packets carrying another request's id in a well-formed response are never counted.", "quantifier": "all event histories", "why_tests_cant": "requires counting over arbitrary histories.", "anchors": ["controller/src/ioloop.rs: run, increment_faulty_message_count", "controller/src/lib.rs: NUM_ALLOWED_ERROR_MESSAGES"]}
{"id": "C26", "title": "Delivered payloads have exactly the advertised length", "statement": "A response delivered to a caller carries exactly data bytes plus error bytes as computed from its module sets; a matching response with fewer trailing bytes is answered with WrongDataSize(expected, actual); extra trailing bytes are dropped.", "quantifier": "all responses and all trailing byte strings", "why_tests_cant": "lengths depend on arbitrary masks and read lengths.", "anchors": ["controller/src/ioloop.rs: handle_sp_response", "messages/src/message.rs: SpResponse::{expected_data_len,expected_error_data_len}"]}
{"id": "C27", "title": "No received packet can crash the request loop", "statement": "Whatever bytes arrive in a UDP packet, the loop keeps running.", "quantifier": "all byte strings and all loop states", "why_tests_cant": "needs every packet in every state; the crash needs a truncated packet while a request is outstanding.", "anchors": ["controller/src/ioloop.rs: run, handle_sp_response"]}
{"id": "C28", "title": "Abandoning a call does not disturb the loop", "statement": "If the caller drops a pending request, the loop continues to serve later requests.", "quantifier": "all event histories with cancellations", "why_tests_cant": "cancellation timing.", "anchors": ["controller/src/ioloop.rs: response_tx.send(..).expect(..)", "controller/src/messages.rs: OutstandingHostRequest::response_tx"]}
{"id": "C29", "title": "Transmitted requests are decodable by the peer", "statement": "The bytes transmitted for a request are the encoded header, the encoded message and the data, so that the peer decodes the same header and message and is left with exactly the data; they always fit in one packet for every request the controller issues.", "quantifier": "all requests issued by any controller operation", "why_tests_cant": "all field values and data.", "anchors": ["controller/src/ioloop.rs: send_outgoing_request", "controller/src/controller.rs: rpc callers"]}
{"id": "C30", "title": "Protocol-error replies are labelled as errors", "statement": "Every protocol-error packet the host sends has a header whose kind is Error and echoes the offending message id.", "quantifier": "all received packets", "why_tests_cant": "one branch reuses the received header.", "anchors": ["controller/src/ioloop.rs: send_protocol_error, run, handle_sp_request"]}
{"id": "C31", "title": "Replies to SP requests are decodable by the peer", "statement": "A reply the host handler produces for an SP request is transmitted as header, message, data, so that the SP can decode it.", "quantifier": "all replies", "why_tests_cant": "the path is unused by current handlers.", "anchors": ["controller/src/ioloop.rs: send_outgoing_response"]}
{"id": "C32", "title": "Message ids of outstanding and recent requests are distinct", "statement": "Fewer than 2^64 consecutive requests from one controller never share a message id.", "quantifier": "all controller histories", "why_tests_cant": "wrap-around of a 64-bit counter.", "anchors": ["controller/src/controller.rs: Controller::next_header"]}
{"id": "C33", "title": "Large reads are split into requests that fit one packet", "statement": "Splitting a read over modules yields disjoint non-empty module groups covering exactly the requested modules, in increasing order, and for each group any conforming response (data plus error bytes) fits in the payload limit.", "quantifier": "all module sets, all valid reads", "why_tests_cant": "group sizes depend on 1024/len and mask.", "anchors": ["controller/src/controller.rs: split_large_reads, fits_in_one_message, read_impl", "messages/src/lib.rs: MAX_PAYLOAD_SIZE"]}
{"id": "C34", "title": "Reads account for every module", "statement": "Against an SP whose every answer partitions the addressed modules into success and failure and carries matching data, Controller::read returns each addressed module exactly once, as success with the bytes the SP returned for it or as failure with the error the SP returned for it, even when the read is split.", "quantifier": "all module sets, reads and conforming SP behaviours (including failures of any subset)", "why_tests_cant": "splitting, identification failures and partial failures interact.", "anchors": ["controller/src/controller.rs: Controller::{read,read_impl,read_impl_one_message,identifier}"]}
{"id": "C35", "title": "A memory access is only sent to modules of the right kind", "statement": "Controller::read/write never address a module with a page of the other management interface: if any identified module does not use the page's interface the call fails with the first such module and no access is sent, and modules whose identification failed are never accessed.", "quantifier": "all module sets, pages, SP behaviours", "why_tests_cant": "all identifier combinations over all modules.", "anchors": ["controller/src/controller.rs: Controller::{read,write}, verify_ids_for_page"]}
{"id": "C36", "title": "Writes are broadcast with exactly the data given", "statement": "Controller::write fails without sending a write iff the data length differs from the write's length (InvalidWriteData) or verification fails; otherwise one write carrying exactly the data is sent to the identified modules, and each addressed module is reported once.", "quantifier": "all module sets, writes, data, conforming SPs", "why_tests_cant": "all data and masks.", "anchors": ["controller/src/controller.rs: Controller::{write,write_impl}"]}
{"id": "C37", "title": "The declared request data length matches what is sent", "statement": "For every request the controller sends, the number of data bytes following it equals HostRequest::expected_data_len.", "quantifier": "all requests", "why_tests_cant": "the two are computed in different crates.", "anchors": ["messages/src/message.rs: HostRequest::expected_data_len", "controller/src/controller.rs: write_impl"]}
{"id": "C38", "title": "Reset is asserted before it is released, and only survivors are released", "statement": "Controller::reset asserts reset on all requested modules, then deasserts it exactly on those that acknowledged, and reports as successful those that acknowledged both and as failed the others, each with its own error.", "quantifier": "all module sets and conforming SPs", "why_tests_cant": "partial failures at each step.", "anchors": ["controller/src/controller.rs: Controller::reset"]}
{"id": "C39", "title": "Single-step operations report exactly what the SP reported", "statement": "For each single-step command (power, reset, lpmode, faults, latch, LEDs, status), exactly one request naming exactly the given modules is sent and the result's successes, data and errors are those of the response.", "quantifier": "all module sets and responses", "why_tests_cant": "all masks and error bytes.", "anchors": ["controller/src/controller.rs: no_payload_request, status, extended_status, leds, set_leds, enable_power, ..."]}
{"id": "C40", "title": "Unexpected answers become errors, not crashes", "statement": "If the SP answers with a response of the wrong kind, the controller reports a WrongMessage protocol error; unknown status or LED encodings are reported as errors.", "quantifier": "all responses", "why_tests_cant": "forward compatibility with unknown future bits.", "anchors": ["controller/src/controller.rs: leds, status, extended_status, read_impl_one_message, mac_addrs"]}
{"id": "C41", "title": "Decoded module information is attributed to the right module", "statement": "For operations that read and decode per-module information (vendor info, monitors, datapath, memory model, power control), every addressed module appears exactly once as success or failure, and each success carries the value decoded from that module's own bytes.", "quantifier": "all module sets, identifier mixes and SP behaviours", "why_tests_cant": "grouping by kind reorders modules.", "anchors": ["controller/src/controller.rs: parse_modules_by_identifier, split_modules_by_identifier"]}
{"id": "C42", "title": "Errors are attributed to the module that failed", "statement": "In the result of those operations the error listed for a failed module is the error that module produced.", "quantifier": "all module sets, identifier mixes and SP behaviours", "why_tests_cant": "error order depends on which step each module fails in.", "anchors": ["controller/src/controller.rs: parse_modules_by_identifier", "controller/src/results.rs: FailedModules::{iter,nth}"]}
{"id": "C43", "title": "Powering off follows the safe order and accounts for every module", "statement": "set_power(Off) sends deassert-lpmode, assert-reset, disable-power in this order, each exactly to the modules that acknowledged the previous step, and every module is reported exactly once.", "quantifier": "all module sets and conforming SPs", "why_tests_cant": "partial failures at each step.", "anchors": ["controller/src/controller.rs: set_power (Off)"]}
{"id": "C44", "title": "High power is never applied to an unpowered module", "statement": "set_power(High) on a set containing a module currently off fails with InvalidPowerStateTransition before any state-changing command is sent.", "quantifier": "all module sets, all current power states, all SPs", "why_tests_cant": "any mix of states.", "anchors": ["controller/src/controller.rs: set_power (High)"]}
{"id": "C45", "title": "Setting power reports every requested module", "statement": "set_power(Low/High) reports each requested module exactly once, as success or failure.", "quantifier": "all module sets, power states and conforming SPs", "why_tests_cant": "mixed initial states.", "anchors": ["controller/src/controller.rs: set_power, set_software_power_state"]}
{"id": "C46", "title": "A module reported as set to low power was told so", "statement": "After set_power(Low) succeeds for a module that was already powered, low-power mode has been asserted on it.", "quantifier": "all module sets, power states and conforming SPs", "why_tests_cant": "mixed initial states narrow the working set.", "anchors": ["controller/src/controller.rs: set_power (Low)"]}
{"id": "C47", "title": "Software power control is preserved", "statement": "Setting a module's power never switches it between hardware and software control of low power: modules under software override keep the override and get the requested power; modules under hardware control are left under hardware control.", "quantifier": "all module sets, kinds, control modes", "why_tests_cant": "mixed kinds and control modes share one loop.", "anchors": ["controller/src/controller.rs: set_software_power_state", "decode/src/power.rs"]}
{"id": "C48", "title": "Power mode reports reflect status and software override", "statement": "power() reports Off for a module without power, and for a powered module Low or High according to the hardware pin or, when overridden, the software setting.", "quantifier": "all status bits and power-control words", "why_tests_cant": "combinations of status bits and control words.", "anchors": ["controller/src/controller.rs: Controller::power", "decode/src/power.rs: PowerControl::parse"]}
{"id": "C49", "title": "Power control words round-trip", "statement": "Decoding the control byte written to select (override, low power) yields that selection, for SFF-8636 and CMIS, for every byte value the other bits may have.", "quantifier": "all control bytes", "why_tests_cant": "inverted polarity between the two standards.", "anchors": ["decode/src/power.rs: PowerControl::parse", "controller/src/controller.rs: set_software_power_state"]}
{"id": "C50", "title": "Byte codes round-trip through their enums", "statement": "For each SFF-8024/CMIS code table, converting any byte to its enum and back gives the byte.", "quantifier": "all 256 bytes for all tables", "why_tests_cant": "tables with hundreds of hand-written rows and overlapping ranges.", "anchors": ["decode/src/utils.rs: bitfield_enum!", "decode/src/ident.rs: Identifier, ExtendedSpecificationComplianceCode, HostElectricalInterfaceId, MediaType, *MediaInterfaceId", "decode/src/datapath.rs: ConnectorType"]}
{"id": "C51", "title": "Enum names round-trip through strings", "statement": "For each code table, parsing the displayed name of any value gives the value back.", "quantifier": "all enum values, including catch-all variants with any byte", "why_tests_cant": "existing tests iterate one payload per catch-all variant.", "anchors": ["decode/src/utils.rs: bitfield_enum!, parse_u8_bitfield_variant", "decode/src/datapath.rs: EthernetComplianceCode"]}
{"id": "C52", "title": "OUIs round-trip through strings", "statement": "Parsing the displayed form of any OUI gives it back; parsing accepts only three dash-separated hexadecimal octets.", "quantifier": "all OUIs; all strings", "why_tests_cant": "all strings.", "anchors": ["decode/src/ident.rs: Oui FromStr/Display"]}
{"id": "C53", "title": "Decoders agree with the reads they request", "statement": "For every supported module kind, and for every possible memory map of the module, decoding the bytes returned by exactly the requested reads never aborts.", "quantifier": "all memory maps, all supported identifiers, all five decoded types", "why_tests_cant": "memory contents are controlled by the module vendor (2^2048 maps).", "anchors": ["decode/src/*.rs: ParseFromModule::{reads,parse}"]}
{"id": "C54", "title": "Decoders only request legal reads of the right interface", "statement": "For every supported identifier, the reads requested are legal accesses on a page of the identifier's own management interface; unsupported identifiers are refused.", "quantifier": "all identifiers", "why_tests_cant": "finite but the relation ties two crates.", "anchors": ["decode/src/*.rs: ParseFromModule::reads", "decode/src/ident.rs: Identifier::management_interface"]}
{"id": "C55", "title": "Vendor information comes from the documented bytes", "statement": "For every memory map, the decoded vendor name, OUI, part, revision, serial and date are those at the documented absolute addresses for the module kind, text being cut at the first invalid UTF-8 byte and trailing whitespace trimmed; the date is reported verbatim when it is valid UTF-8 and is absent otherwise.", "quantifier": "all memory maps of both kinds", "why_tests_cant": "offset arithmetic over split reads.", "anchors": ["decode/src/ident.rs: VendorInfo"]}
{"id": "C56", "title": "Monitors come from the documented bytes and unsupported ones are absent", "statement": "For every memory map, each reported monitor is decoded from its documented address; a monitor is present iff the module advertises it (or, for old SFF-8636 modules, looks plausible); lanes are in order (4 for SFF-8636, 8 for CMIS).", "quantifier": "all memory maps of both kinds", "why_tests_cant": "support bits x values.", "anchors": ["decode/src/monitors.rs: Monitors::parse"]}
{"id": "C57", "title": "Auxiliary monitors are present iff advertised", "statement": "For CMIS, auxiliary monitors are reported iff at least one of aux1-3 or custom is advertised, and thermo-electric cooler current is signed.", "quantifier": "all CMIS memory maps", "why_tests_cant": "support-bit mask and signedness only visible on specific bytes.", "anchors": ["decode/src/monitors.rs: any_aux_supported, decode_aux1, decode_aux2"]}
{"id": "C58", "title": "Memory model lists exactly the advertised pages, sorted, without repeats", "statement": "For a paged module the model lists the mandatory pages and exactly the optional pages advertised, in increasing order without duplicates; for a flat one it is Flat.", "quantifier": "all memory maps of both kinds", "why_tests_cant": "combinations of advertisement bits.", "anchors": ["decode/src/memory_model.rs: MemoryModel::parse"]}
{"id": "C59", "title": "SFF-8636 lane flags are per-lane bits of the documented bytes", "statement": "Each of the four lanes' flags is the corresponding bit (inverted for transmitter disable) of its documented byte.", "quantifier": "all memory maps", "why_tests_cant": "36 flags.", "anchors": ["decode/src/datapath.rs: Datapath::parse (SFF-8636)"]}
{"id": "C60", "title": "CMIS datapaths group lanes by their assigned application", "statement": "Each lane assigned to application k appears (numbered from 1) in exactly datapath k with its own flags, unassigned lanes appear nowhere, and unsupported controls are absent.", "quantifier": "all memory maps on which decoding succeeds", "why_tests_cant": "16^8 lane assignments.", "anchors": ["decode/src/datapath.rs: Datapath::parse (CMIS)"]}
{"id": "C61", "title": "CMIS lane state comes from the lane's own nibble", "statement": "The state of the first lane of each pair is the low nibble of the pair's state byte, and of the second lane the high nibble.", "quantifier": "all memory maps", "why_tests_cant": "symmetric test data hides swaps.", "anchors": ["decode/src/datapath.rs: datapath_state nibble"]}
{"id": "C62", "title": "Transceiver lists on the command line mean what they say", "statement": "A comma-separated list of ports and inclusive ranges selects exactly the listed ports; malformed, decreasing or out-of-range items are refused.", "quantifier": "all strings", "why_tests_cant": "infinite strings.", "anchors": ["controller/src/bin/xcvradm.rs: parse_transceivers"]}
{"id": "C63", "title": "Multi-chunk reads from the command line survive module failures", "statement": "When some module fails during a multi-chunk read, the remaining modules' data is still reported and the failure listed.", "quantifier": "all module sets, chunk lists and conforming SPs", "why_tests_cant": "needs a failing module on a multi-chunk read.", "anchors": ["controller/src/bin/xcvradm.rs: ReadLower/ReadUpper", "controller/src/results.rs: append"]}
{"id": "C64", "title": "Write data input is parsed totally", "statement": "Any non-empty text input either parses to its bytes or is refused; it never aborts and is never silently truncated.", "quantifier": "all input strings", "why_tests_cant": "boundary lengths.", "anchors": ["controller/src/bin/xcvradm.rs: load_known_write_data, load_write_data_autodetect_kind"]}
{"id": "C65", "title": "End to end: a successful call reflects an SP execution of that very request", "statement": "Over a network that may lose, duplicate, delay and reorder packets, when an RPC returns a response, the SP received that request's exact bytes at least once and the response is one the SP produced for it.", "quantifier": "all network schedules, all SP behaviours, all request histories shorter than 2^64", "why_tests_cant": "all interleavings of an unreliable network.", "anchors": ["controller/src/ioloop.rs", "controller/src/controller.rs: rpc", "messages/src/message.rs"]}
{"id": "C66", "title": "A finished call has no further effect", "statement": "Once a call has returned to its caller, the SP does not receive that call's request again, so a caller that does one thing after another sees the SP do them in that order.", "quantifier": "all network schedules, all timings of retransmission, all request histories shorter than 2^64", "why_tests_cant": "needs a retransmission to be delayed past the response and past the caller's next request.", "anchors": ["controller/src/ioloop.rs: IoLoop::run (tick branch), send_outgoing_request", "controller/src/controller.rs: reset, rpc"]}
{"id": "C67", "title": "A selection stands for exactly the modules that report it", "statement": "Selecting transceivers by presence, power state or kind yields exactly the ports whose own answer says so: presence bit, power mode by status and control byte, or identifier byte; ports that do not answer are never selected. Selecting by number asks nothing.", "quantifier": "all selections, all SP answers to each port", "why_tests_cant": "needs combinations of answers over 32 ports.", "anchors": ["controller/src/bin/xcvradm.rs: address_transceivers", "messages/src/lib.rs: filter_module_data", "controller/src/controller.rs: status, power, identifier"]}
{"id": "C68", "title": "The status command falls back without losing modules", "statement": "The status command reports the extended status of every module if the SP gives it, and otherwise the plain status with the same flags; each module once.", "quantifier": "all module sets, all SP answers", "why_tests_cant": "needs SPs of both protocol ages and mixed failures.", "anchors": ["controller/src/bin/xcvradm.rs: main (Cmd::Status)", "messages/src/message.rs: From<Status> for ExtendedStatus"]}
{"id": "C69", "title": "Status filters say what they say", "statement": "`status --with A --without B` prints one truth value per answering module: 1 exactly if all flags in A and none of the flags in B are set; it never aborts.", "quantifier": "all flag sets, all results", "why_tests_cant": "all pairs of flag sets.", "anchors": ["controller/src/bin/xcvradm.rs: print_module_status, main (Cmd::Status)"]}
{"id": "C70", "title": "Failures are printed against their own module", "statement": "Every failed module is printed exactly once, with its own error, in port order.", "quantifier": "all results", "why_tests_cant": "sets of failing modules.", "anchors": ["controller/src/bin/xcvradm.rs: print_failures", "controller/src/results.rs: FailedModules"]}
{"id": "C71", "title": "A write command writes exactly its input or nothing", "statement": "The write commands accept input exactly if it is a legal single write at the given page and offset, and then the only write sent is these bytes to that place, once, to modules of the right kind.", "quantifier": "all pages, offsets, inputs, module sets and SP behaviours", "why_tests_cant": "all sizes against all offsets, and every SP answer.", "anchors": ["controller/src/bin/xcvradm.rs: main (Cmd::WriteLower, Cmd::WriteUpper)", "controller/src/controller.rs: write"]}
{"id": "C72", "title": "Commands for no modules succeed", "statement": "When a selection is empty, every command still succeeds with an empty result, so that callers can tell an empty selection from a failure.", "quantifier": "all commands, all conforming SP answers", "why_tests_cant": "each command has its own path through empty sets.", "anchors": ["controller/src/bin/xcvradm.rs: main (comment on zero transceivers)", "controller/src/controller.rs"]}
{"id": "C73", "title": "Parseable output can be split back into its fields", "statement": "With --parseable and a list of fields, every command prints one line per module (after an optional header line) that splits at the separator into exactly the requested fields, in the requested order, with the values of that module; two results with different field values never print the same text.", "quantifier": "all result sets, all lists of fields, all separators of one character", "why_tests_cant": "vendor texts come from the modules and can contain any character.", "anchors": ["controller/src/bin/xcvradm.rs: print_power_mode, print_module_status, print_read_data, print_module_identifier, print_vendor_info, print_module_memory_model, print_led_state, print_parseable_header"]}
{"id": "C74", "title": "Printed values determine the values", "statement": "A printed port, byte, list of bytes or set of status flags denotes exactly the value it was printed from: ports are decimal numbers, bytes hexadecimal or binary numbers, the text of a list of bytes determines the list, the text of a status is accepted by --with and gives the same flags, and the table of all status bits marks exactly the bits that are set.", "quantifier": "all values", "why_tests_cant": "all sets of flags and all byte lists of any length.", "anchors": ["controller/src/bin/xcvradm.rs: print_read_data, print_module_status, print_all_status, parse_status", "messages/src/message.rs: ExtendedStatus"]}
{"id": "C75", "title": "Memory models can always be printed", "statement": "Printing the memory model decoded from any module never aborts, and the text tells whether memory is flat and which pages and banks there are, in order.", "quantifier": "all module memories and identifiers", "why_tests_cant": "the code relies on an invariant of the decoder (only upper pages) that no type expresses.", "anchors": ["decode/src/memory_model.rs: Display for MemoryModel"]}
{"id": "C76", "title": "Receiver power is printed under the right name", "statement": "Printing the monitors decoded from any module never aborts, and receiver power is labelled average or peak-to-peak as measured, for every lane, although the label is chosen from the first lane only.", "quantifier": "all module memories and identifiers", "why_tests_cant": "the code indexes the first lane of a list that the type allows to be empty.", "anchors": ["controller/src/bin/xcvradm.rs: print_monitors", "decode/src/monitors.rs: parse"]}
{"id": "C77", "title": "The column of average power holds averages", "statement": "In parseable output the field for average receiver power holds the average powers of the lanes if the module measures averages, and is empty otherwise.", "quantifier": "all module memories", "why_tests_cant": "depends on a capability bit of the module.", "anchors": ["controller/src/bin/xcvradm.rs: print_monitors, MonitorFields"]}
{"id": "C78", "title": "Printed MAC addresses", "statement": "The addresses of a range are printed in order, each exactly once, as six two-digit hexadecimal octets, and printing never aborts.", "quantifier": "all valid ranges", "why_tests_cant": "ranges of up to 65535 addresses.", "anchors": ["controller/src/bin/xcvradm.rs: print_mac_address_range", "messages/src/mac.rs: MacAddrs::iter"]}
{"id": "C79", "title": "The configured address belongs to the interface", "statement": "Building a configuration with an address succeeds exactly if that address is assigned to the named interface; without an address it uses the first fe80::/64 address of the interface, and fails, naming the interface, if there is none.", "quantifier": "all lists of interface addresses, all builders", "why_tests_cant": "depends on the addresses of the machine.", "anchors": ["controller/src/config.rs: ConfigBuilder::build, is_valid_address, find_interface_link_local_addr"]}
{"id": "C80", "title": "Configuration settings are independent", "statement": "After any sequence of builder calls each setting of the configuration has the value given last for it, or else its documented default; no call disturbs another setting.", "quantifier": "all sequences of builder calls", "why_tests_cant": "all orders of calls.", "anchors": ["controller/src/config.rs: ConfigBuilder"]}
{"id": "C81", "title": "Starting a controller does not abort", "statement": "Starting a controller from a built configuration never aborts: it fails with an error if the interface does not exist or the socket cannot be bound or join the group, and otherwise listens on the configured address and port and the protocol's group and sends to the configured peer, all on the configured interface.", "quantifier": "all configurations that the builder or the command line accepts", "why_tests_cant": "all values of settings, e.g. a zero retry interval.", "anchors": ["controller/src/controller.rs: Controller::new", "controller/src/ioloop.rs: IoLoop::new", "controller/src/bin/xcvradm.rs: main"]}
{"id": "C82", "title": "Requests from the SP cannot stall the host", "statement": "However many requests the SP sends, and however the handler given to the controller replies to them, the controller keeps serving its callers: whenever its task waits to pass a request to the handler, the handler taking requests and giving replies gets it back to its work.", "quantifier": "all histories of datagrams, calls, timers and handler steps; all capacities of the handler's channel; handlers that work on any number of requests at a time; all replies", "why_tests_cant": "the stall needs a particular interleaving of arriving datagrams, two full channels and a waiting handler; tokio's select picks branches at random, so a test may pass any number of times", "anchors": ["controller/src/ioloop.rs: handle_sp_request, IoLoop::run, IoLoop::new", "controller/src/lib.rs: NUM_OUTSTANDING_REQUESTS", "controller/src/bin/xcvradm.rs: main (request handler)"]}
{"id": "C83", "title": "SP requests reach the handler once and in order, replies go out once and in order", "statement": "Every well-formed request of the SP that is received is handed to the handler exactly once, in the order of arrival. Every reply of the handler is taken exactly once, in order, and exactly the datagram it asks for is transmitted. Neither disturbs the service of callers: they are answered in order, none twice.", "quantifier": "all histories of datagrams, calls, timers and handler steps; all channel capacities and handler behaviours", "why_tests_cant": "it is a statement about all interleavings of loop, channels and handler of any length", "anchors": ["controller/src/ioloop.rs: handle_sp_request, send_outgoing_response, IoLoop::run", "controller/src/messages.rs: SpRequest"]}
{"id": "C84", "title": "A method addresses only the modules it was given", "statement": "Every request a method of the controller sends is about modules the caller named, at every step of multi-step operations, and its result names no others, provided the SP's responses name only modules they were asked about.", "quantifier": "all methods, module sets, arguments and sequences of replies whose responses name only modules asked about, including failing, aborting and malformed ones", "why_tests_cant": "later steps act on sets computed from earlier replies; a stray bit would power or reset a module nobody named, and only some reply sequences would show it", "anchors": ["controller/src/controller.rs: reset, set_power, set_software_power_state, parse_modules_by_identifier, split_large_reads, power, read, write"]}
{"id": "C85", "title": "Inspecting modules changes nothing", "statement": "The methods that inspect modules (identifier, vendor information, power, status, extended status, reading memory, memory model, monitors, datapath, LEDs, MAC addresses) send only queries, never a command or a write, whatever the SP answers.", "quantifier": "all inspecting methods, module sets, reads and sequences of replies", "why_tests_cant": "tests compare results, not the absence of commands over every reply sequence", "anchors": ["controller/src/controller.rs: identifier, vendor_info, power, status, extended_status, read, memory_model, monitors, datapath, leds, mac_addrs"]}
{"id": "C86", "title": "Module memory is written only where asked", "statement": "The write method writes exactly the access and the bytes it was given, setting low or high power writes one byte at byte 93 or 26 of the lower page, and no other method writes module memory, whatever the SP answers.", "quantifier": "all methods, arguments and sequences of replies", "why_tests_cant": "a stray write would show only for some module kinds and replies, and may damage a module", "anchors": ["controller/src/controller.rs: write, write_impl, set_power, set_software_power_state"]}
{"id": "C87", "title": "Setting the power leaves the rest of the control byte alone", "statement": "When setting the power of a module writes its power control byte, all bits of that byte that are not about power keep the value the module reported.", "quantifier": "all module sets, power states, modules and replies of a proper SP", "why_tests_cant": "it is about every previous value of the byte and every mix of modules", "anchors": ["controller/src/controller.rs: set_software_power_state"]}
{"id": "C88", "title": "A command of the tool changes only what it is for", "statement": "Every request a run of the tool sends, whatever the command, the selection and the flags, is a query that carries no data or one of the requests that belong to the command (for power settings, one byte of a power control register with the bit asked for; for writes, the bytes given, to the page and offset given). Commands that inspect send queries only, and a command refused for its arguments has sent nothing but the queries that select modules.", "quantifier": "all commands, arguments, selections and sequences of replies, including malformed ones and runs that fail or abort", "why_tests_cant": "a stray request is sent only after certain replies, and the damage is to hardware; the space of replies and arguments is unbounded", "anchors": ["controller/src/bin/xcvradm.rs: main, address_transceivers", "controller/src/controller.rs: public methods"]}
{"id": "C89", "title": "A command of the tool is for the modules selected", "statement": "A run first selects modules, by queries alone. If that fails the run ends with an error and nothing else is sent. Otherwise every further request is about modules selected only; if ports are listed on the command line, so is every request of the run. This holds provided the SP's responses name only modules they were asked about.", "quantifier": "all commands, selections, flags and sequences of replies whose responses name only modules asked about", "why_tests_cant": "selection depends on replies, and so do later steps of a command; a wrong set would act on modules nobody chose", "anchors": ["controller/src/bin/xcvradm.rs: main, address_transceivers"]}
{"id": "C90", "title": "The failure lines of a command that acts account for every module", "statement": "A command that acts and ends normally, without --ignore-errors, prints nothing on standard output; its failure lines name, in ascending order and none twice, modules that were selected, each with the error the SP gave for that module; the modules not named are exactly those for which the SP acknowledged the last request, which belongs to the command. The exit status does not tell: it is 0 although modules failed.", "quantifier": "all commands that act except setting low or high power, all selections and all proper SPs, with any modules failing at any step", "why_tests_cant": "failures at different steps are merged; which module is blamed with which error depends on the combination", "anchors": ["controller/src/bin/xcvradm.rs: main, print_failures"]}
{"id": "C91", "title": "A table names every module selected once", "statement": "A command that prints a table in the default form, monitors or datapaths, and ends normally, without --ignore-errors, names every module selected exactly once: by a line on standard output that starts with its port, or by a line of failures. Both are in ascending order, and no other module is named. For status this also holds if the SP does not know the request for the extended status and the tool falls back to the older one.", "quantifier": "all selections, all proper SPs with any modules failing at any step, all decoded values", "why_tests_cant": "results are merged from groups by module kind and from several requests; ports and values are matched by position", "anchors": ["controller/src/bin/xcvradm.rs: print_power_mode, print_module_status, print_read_data, print_module_identifier, print_vendor_info, print_module_memory_model, print_led_state, print_monitors, print_datapath"]}
{"id": "C92", "title": "The columns of the vendor table always line up", "statement": "Every line of the default vendor table, header and rows alike, is exactly 106 characters long; port, identifier, vendor, part, revision, serial and date codes each lie within their own column, and the gaps between columns are single spaces. No vendor string a module can report shifts a later column.", "quantifier": "all modules, all contents of module memory (including text that is not ASCII), all selections and all proper SPs", "why_tests_cant": "the widths rest on bounds of the text decoded from arbitrary module memory, for every identifier and every date", "anchors": ["controller/src/bin/xcvradm.rs: print_vendor_info", "decode/src/ident.rs: VendorInfo"]}
{"id": "C93", "title": "The tool does not abort against a proper SP", "statement": "Whatever the command line that the parser accepts and whatever modules contain or fail, a run of the tool against an SP that answers properly ends with a normal exit or an error message; it does not abort.", "quantifier": "all commands, arguments, selections and sequences of proper replies, including errors of the I/O loop at any point", "why_tests_cant": "an abort depends on a combination of arguments, module memory and failures; showing its absence needs all of them", "anchors": ["controller/src/bin/xcvradm.rs: main, print_module_status, print_mac_address_range, load_write_data", "controller/src/results.rs: append"]}
{"id": "C94", "title": "The datapath command shows what the modules' memories say", "statement": "After a datapath command that ends normally, every selected module is either shown once, in order of ports, or listed as a failure. The connector, the specification, the applications in use with their lanes, and the flag of every lane shown for a module are those its own memory holds; flags a module does not support say so.", "quantifier": "all selections, all contents of the modules' memories, all failures of modules and all proper SPs that answer from those memories", "why_tests_cant": "covers every byte of every module's memory and every mix of failing modules, through reads, decoding, grouping and printing", "anchors": ["controller/src/bin/xcvradm.rs: print_datapath, print_cmis_datapath, print_sff8636_datapath", "decode/src/datapath.rs: Datapath"]}
{"id": "C95", "title": "The identify, vendor-info and memory-model commands show what the modules' memories say", "statement": "After such a command that ends normally, every selected module is either shown on one line, in order of ports, or listed as a failure. What the line says, in the default and in the parseable form, is what the module's own memory holds: byte 0 and its meaning; name, part, revision, serial number and date; the pages and banks the module has.", "quantifier": "all selections, fields and separators, all contents of the modules' memories, all failures of modules and all proper SPs that answer from those memories", "why_tests_cant": "covers every byte of every module's memory and every mix of failing modules, through reads, decoding and printing", "anchors": ["controller/src/bin/xcvradm.rs: print_module_identifier, print_vendor_info, print_module_memory_model", "controller/src/lib.rs: parse_modules_by_identifier, identifier"]}
{"id": "C96", "title": "The monitors command shows what the modules' memories say", "statement": "After a monitors command that ends normally, every selected module is either shown, in order of ports, or listed as a failure. Each monitor that the module advertises, auxiliary and custom ones included, is shown with the value in the module's own memory, and the others as missing.", "quantifier": "all selections, all contents of the modules' memories, all failures of modules and all proper SPs that answer from those memories", "why_tests_cant": "covers every byte of every module's memory, every combination of advertised monitors and every mix of failing modules", "anchors": ["controller/src/bin/xcvradm.rs: print_monitors, aux1_monitor_value, aux2_monitor_value, aux3_monitor_value", "decode/src/monitors.rs: Monitors, decode_aux1"]}
{"id": "C97", "title": "The status, power, LED, read and MAC commands show what the SP reports", "statement": "After such a command that ends normally, every selected module is either shown on one line, in order of ports, or listed as a failure (the MAC command shows the system's range instead). The line shows, in the default and in the parseable form: the names of exactly the flags reported for that module, or marks under the labels of those flags, or the answer to the question asked about flags; the power state and override that its status and its control byte amount to; the state of its LED; the bytes its memory holds at the page and addresses asked for; base, count and stride of the range, or its addresses in order.", "quantifier": "all selections, fields, separators and page choices, all statuses, LED states, memories and ranges, all failures of modules and all proper SPs", "why_tests_cant": "covers every combination of flags, every byte of memory and every mix of failing modules, through requests, splitting of reads, decoding and printing", "anchors": ["controller/src/bin/xcvradm.rs: print_module_status, print_all_status, print_power_mode, print_led_state, print_read_data, print_mac_address_range", "controller/src/lib.rs: power, leds, read, extended_status, mac_addrs"]}
{"id": "C98", "title": "--omit-header leaves out exactly the header", "statement": "A command that prints a table prints the header first; with --omit-header it makes the same requests, ends the same way and prints the same lines without the header.", "quantifier": "all commands that take the flag, in every form, all selections and all behaviours of the SP", "why_tests_cant": "relates two runs for every command, form, choice of fields and behaviour of the SP", "anchors": ["controller/src/bin/xcvradm.rs: omit_header, OutputKind, print_module_status, print_all_status_header"]}
{"id": "C99", "title": "--ignore-errors silences only the list of failures", "statement": "With --ignore-errors every command makes the same requests, prints the same lines on standard output and ends with the same exit status as without it; only the list of modules that failed is left out.", "quantifier": "all commands and arguments, all selections and all behaviours of the SP", "why_tests_cant": "relates two runs for every command and every behaviour of the SP, errors and lost answers included", "anchors": ["controller/src/bin/xcvradm.rs: main, ignore_errors, print_failures"]}
{"id": "C100", "title": "Measured values are stored to the precision of the number type", "statement": "Each measurement of a module is stored as a number of the single precision type. A temperature is stored exactly; a voltage, optical power, bias current or cooler current is within a few units of 2^-24, relatively, of the value that the register stands for (1.5 for voltage, 2.25 for power, 2.05 for bias, 0.5 for coolers).", "quantifier": "all contents of module memory and all raw register values", "why_tests_cant": "the error depends on the raw value and on the constants, for 65536 values of each kind of register; a wrong order of operations or constant shows for some only", "anchors": ["decode/src/monitors.rs: ParseFromModule for Monitors, conversions to f32"]}
{"id": "C101", "title": "Powers and bias currents are shown exactly", "statement": "The monitors command shows each optical power and each bias current with four decimals, and the number shown is exactly the one the module stores: a multiple of 0.1 uW, or of 2 uA times the multiplier.", "quantifier": "all contents of module memory, all multipliers", "why_tests_cant": "rounding of stored numbers to four decimals must undo the rounding of arithmetic for each of 65536 raw values and each multiplier", "anchors": ["controller/src/bin/xcvradm.rs: display_list", "decode/src/monitors.rs: ParseFromModule for Monitors"]}
{"id": "C102", "title": "Temperatures, voltages and cooler currents are shown so that they can be read back", "statement": "The text shown for a temperature, voltage or cooler current reads back as the stored number, has as few decimals as that allows, and is within 0.00001 degrees, 1 uV or a millionth of the value the module stores.", "quantifier": "all contents of module memory", "why_tests_cant": "concerns the shortest of infinitely many decimal texts, for each raw value", "anchors": ["controller/src/bin/xcvradm.rs: print_monitors and Display of f32", "decode/src/monitors.rs: ParseFromModule for Monitors"]}
{"id": "C103", "title": "Refusals depend on the arguments, and the exit status tells how the tool ended", "statement": "A command is refused exactly if its arguments are at fault: a read that leaves its page, a page or bank that does not exist, missing or malformed input, or data that do not make one legal write. Refusal happens before anything but the selection of modules is requested. The exit status is 0 exactly if modules were selected and the command ran to its end, 1 after an error or refusal, 101 after an abort.", "quantifier": "all commands and arguments, all selections and all behaviours of the SP", "why_tests_cant": "an equivalence over all pages, banks, offsets, lengths and inputs and every behaviour of the SP", "anchors": ["controller/src/bin/xcvradm.rs: main, load_write_data", "messages/src/mgmt: Page::new, MemoryRead::build_many, MemoryWrite::new"]}
{"id": "C104", "title": "Power that is set is the power that is read", "statement": "A module that setting the power reports as a success, and not also as a failure, is in the power state asked for, and the next power report that succeeds for it says so.", "quantifier": "all module sets, power states, initial states of the pins and memories, kinds of modules, and all patterns of failing modules", "why_tests_cant": "the result depends on up to thirteen steps, any of which may fail for any module, and on the previous state of every module", "anchors": ["controller/src/controller.rs: set_power, set_software_power_state, power, status"]}
{"id": "C105", "title": "Pins, LEDs and memory that are set are what is read", "statement": "An LED that was set successfully has that state in the next report. Bytes written to a module are what the next read of the same bytes returns. A command for a pin changes that pin as named, and the status shows it. A module that was reset is out of reset, with its other pins as before.", "quantifier": "all modules, states, pages, offsets, lengths and data, and all patterns of failing modules", "why_tests_cant": "ranges over all data, addresses and groups of modules, and the reads are split over several requests", "anchors": ["controller/src/controller.rs: set_leds, leds, write, read, reset, status"]}
{"id": "C106", "title": "Nothing else changes", "statement": "Methods that only inspect modules leave every port as it is, and every method leaves the ports it was not given as they are, however it ends.", "quantifier": "all methods and arguments, all states of the board, all answers that name only modules asked about", "why_tests_cant": "an effect that must be absent for every method, argument and answer", "anchors": ["controller/src/controller.rs: all public methods of Controller"]}
{"id": "C107", "title": "Every operation ends after a bounded number of requests", "statement": "Whatever the SP answers, a method of the controller sends at most a fixed number of requests (41 for the datapath, 20 for setting power, 23 for vendor information, one or two for single actions), and no xcvradm command sends more than 47. The bounds do not depend on what modules answer.", "quantifier": "all methods, commands and arguments, all module sets, all answers of the SP, conforming or not, and all ways to end", "why_tests_cant": "the number of requests depends on the kinds of the modules, which the answers decide, and on how reads are split", "anchors": ["controller/src/controller.rs: all public methods of Controller, parse_modules_by_identifier, split_modules_by_identifier, split_large_reads, set_software_power_state", "controller/src/bin/xcvradm.rs: main, address_transceivers"]}
{"id": "C108", "title": "Every operation comes to its end", "statement": "With retries limited to N, the steps the tool itself makes (making a call, handing it to the I/O loop, taking it up, timer expiries while it is outstanding, taking the answer) number at most 4 + max(1,N) for each request the operations can make, and at most max(1,N) datagrams are sent for each; for an xcvradm command these are 47 requests. As long as an operation is not finished, one of these steps is possible, whatever was received, lost or sent by anybody, and also if the I/O task has died. So an operation whose steps are taken eventually returns.", "quantifier": "all sets of concurrent operations, all limits, all interleavings of tasks, loop, network and SP, all datagrams from anybody", "why_tests_cant": "termination and absence of deadlock over all schedules and all behaviour of the peer", "anchors": ["controller/src/controller.rs: rpc and all public methods", "controller/src/ioloop.rs: run", "controller/src/bin/xcvradm.rs: main"]}
{"id": "C109", "title": "The list of failures can be read", "statement": "What the tool prints on standard error about modules that failed can be read back: nothing if no failure is listed, else two lines of explanation and one line per failure, in increasing order of ports, each with the port and a message. From the message one gets the kind of failure and its particulars: for a hardware error the module, which of the documented causes it was, and for an unknown cause the code the SP sent; for data that could not be decoded which of the decoding errors it was.", "quantifier": "all commands and options, all answers of the SP, also improper ones, all lists of failures", "why_tests_cant": "texts are put together from ports, causes, codes and names; that no two failures look alike, in any combination, and that a reader finds the parts, holds for all of them only by proof", "anchors": ["controller/src/bin/xcvradm.rs: print_failures", "controller/src/lib.rs: TransceiverError, MaybeUnknown", "messages/src/message.rs: HwError", "decode/src/lib.rs: Error"]}
{"id": "C110", "title": "A hardware failure is one the SP reported", "statement": "Every hardware error in the result of any method, and every one the tool lists, is one that the SP reported in one of the exchanges of that operation, for the module the error names. All other errors in a result come from decoding a module's data. A result has an error for each failed module, and the tool lists failures in increasing order of ports, each at most once.", "quantifier": "all methods and commands, all module sets, all answers of the SP, also improper ones: modules reported twice, not asked for, too few or too many bytes", "why_tests_cant": "errors are decoded, merged over several requests and re-sorted; that none is made up or altered must hold for every history of answers", "anchors": ["controller/src/controller.rs: all public methods, deserialize_hw_errors", "controller/src/results.rs: FailedModules::merge, ModuleResult::merge, append", "controller/src/bin/xcvradm.rs: main"]}
{"id": "C111", "title": "A listed failure names the module it is listed for", "statement": "In the list of failures, the module named in the message of a hardware error is the port at the start of the line.", "quantifier": "all commands, all answers of the SP", "why_tests_cant": "with modules of several kinds failing in several steps the order in which errors are collected differs from the order of ports", "anchors": ["controller/src/bin/xcvradm.rs: print_failures", "controller/src/controller.rs: parse_modules_by_identifier", "controller/src/results.rs: FailedModules"]}
{"id": "C112", "title": "An operation fails as a whole only on named grounds", "statement": "If a method returns an error instead of a result, then one of these holds, and the error says which: its last request was not answered, and the error is the one that took the place of the answer; or the last answer was improper, that is of another kind than the request, or with fewer bytes than its failed modules need, or with an invalid range of MAC addresses, which the error names; or one of the modules asked for its identifier answered one that the operation does not work with, which the error names; or high power was to be set and a module was reported to be without power or in reset; or the data given to a write are not as long as the write. The tool ends with an error of the controller only on these grounds, for the selection or the command given, and never because of the length of the data.", "quantifier": "all public methods and arguments, all commands and selections, all answers of the SP, proper or not", "why_tests_cant": "errors may arise at every step of operations of many requests; that no other error, and no error without its cause, is ever returned must hold for every history of answers", "anchors": ["controller/src/controller.rs: all public methods", "controller/src/lib.rs: Error", "controller/src/bin/xcvradm.rs: main, address_transceivers"]}
{"id": "C113", "title": "No failure to communicate is passed over", "statement": "If a request is not answered, that is the I/O loop gives up or reports an error, no further request is made by that operation and the method returns just that error. The same holds of a run of the tool, except that the status command goes on with the plain status if the extended status is not answered, and with nothing else.", "quantifier": "all public methods and arguments, all commands and selections, all histories of answers, the point at which an answer is missing", "why_tests_cant": "every request of every operation may be the one that is not answered; a swallowed error would show as missing data or as a step taken without the one before it", "anchors": ["controller/src/controller.rs: all public methods, rpc", "controller/src/bin/xcvradm.rs: main (Cmd::Status), address_transceivers"]}
{"id": "C114", "title": "A run that fails says in which step and why", "statement": "A run of the tool that ends with an error of the controller prints nothing on standard output and exits with status 1, and the report on standard error can be read back to the step that failed (selecting the modules, or the command given) and to the cause with all its particulars: the number of tries or of faulty messages, the numbers of a protocol error, the whole of an unexpected message with all its fields, the bad range of MAC addresses, the expected and actual length of data, or what is wrong with the module, including the management error that decoding met. Different causes give different reports. A run that ends normally exits with status 0, and its standard error cannot be taken for such a report; a run that aborts still aborts.", "quantifier": "all commands, options and selections, all answers of the SP, all errors of the controller, all messages the SP may send", "why_tests_cant": "reports are put together from contexts, chains of causes, nested messages and numbers of any size; that the parts can be told apart in every combination holds only by proof", "anchors": ["controller/src/bin/xcvradm.rs: main, address_transceivers (context)", "controller/src/lib.rs: Error, TransceiverError", "messages/src/message.rs: ProtocolError, MessageBody, HostRequest, SpResponse (Debug)", "messages/src/mac.rs: BadMacAddrRange (Display)", "messages/src/module_id.rs: Debug for ModuleId"]}
{"id": "C115", "title": "A refused command names the values at fault", "statement": "A command that is refused because of its arguments or its input prints nothing on standard output, exits with status 1 and says why, naming the values at fault as they were given: the page or bank that does not exist, the offset and length of an access, the size of an operation and the interface.", "quantifier": "all commands that read or write memory, all arguments and inputs", "why_tests_cant": "every combination of page, bank, offset, length and input has its message; a wrong one shows only for some of them", "anchors": ["controller/src/bin/xcvradm.rs: main (ReadLower, WriteLower, ReadUpper, WriteUpper), load_write_data", "controller/src/lib.rs: Error::ByteOutOfRange", "messages/src/mgmt/mod.rs: Error"]}
{"id": "C116", "title": "What is written as JSON is read back", "statement": "Vendor information, measurements, datapaths, power modes and states, LED states and status words that the library returns can be written as JSON and read back, and the value read is the value written, including every measured number.", "quantifier": "all vendor information, power modes and states, LED states and status words; all measurements and datapaths decoded from any bytes, in any answers of the SP", "why_tests_cant": "depends on every code of every table, every pair of bytes of every measurement (f32 to the shortest decimal, to f64 and back to f32), and every combination of absent fields", "anchors": ["decode/src/ident.rs: Vendor, VendorInfo, Oui, MediaInterfaceId (serde)", "decode/src/monitors.rs: Monitors, AuxMonitors (serde)", "decode/src/datapath.rs: Datapath, EthernetComplianceCode (serde, FromStr)", "decode/src/utils.rs: bitfield_enum (serde)", "controller/src/lib.rs: PowerMode, PowerState (serde)", "messages/src/message.rs: LedState, Status (serde)"]}
{"id": "C117", "title": "JSON documents have the form that is specified", "statement": "For each type the documents accepted are exactly those with the names of fields and variants specified, each required field given once, optional ones at most once or null, in any order and with any other fields, or else the values of all fields in the order of declaration (of measurements, the first so many), and each variant without content given by its name alone or as a name with null; the documents written are of this form, leave out measurements that a module does not support, and give each measured number as the shortest decimal that reads back as it.", "quantifier": "all JSON documents, all values", "why_tests_cant": "documents are unbounded trees; acceptance of each and refusal of all others can only be proved", "anchors": ["decode/src/ident.rs, decode/src/monitors.rs, decode/src/datapath.rs (serde attributes)", "controller/src/lib.rs: PowerMode, PowerState", "messages/src/message.rs: LedState, Status"]}
{"id": "C118", "title": "A JSON status word is read in full or refused", "statement": "A number in a JSON document is read as a status or an extended status only if every bit of it is kept.", "quantifier": "all JSON documents", "why_tests_cant": "all numbers that a document may hold", "anchors": ["messages/src/message.rs: Deserialize for Status, Deserialize for ExtendedStatus"]}
{"id": "C119", "title": "Different values have different JSON documents", "statement": "Two values of the same type that differ have different documents, also where a document cannot be read back.", "quantifier": "all pairs of values: vendor information, power modes, status words; measurements and datapaths decoded from any bytes", "why_tests_cant": "ranges over pairs of values", "anchors": ["decode/src/datapath.rs: Datapath, EthernetComplianceCode", "decode/src/monitors.rs: Monitors", "decode/src/ident.rs: VendorInfo"]}
{"id": "C120", "title": "Texts of status flags", "statement": "A text of status flags is read exactly if it is white space only (no flags) or parts between bars, each, apart from white space around it, the name of a flag or 0x and a hexadecimal number of the width of the status; it stands for all these bits together. The text written for any status is such a text and stands for it, different statuses have different texts, and a status and the extended status made from it have the same text.", "quantifier": "all texts; all 8-bit and 32-bit statuses", "why_tests_cant": "all texts of any length, and 2^32 statuses including those with bits that have no name", "anchors": ["messages/src/message.rs: Status, ExtendedStatus (Display, FromStr)", "controller/src/bin/xcvradm.rs: parse_status"]}
{"id": "C121", "title": "Flags that select columns are valid status bits", "statement": "The options --with and --without of the status command take sets of valid status bits; the columns then say which modules have them.", "quantifier": "all texts; all runs of the command with an SP that answers properly", "why_tests_cant": "all texts and all answers of the SP", "anchors": ["controller/src/bin/xcvradm.rs: parse_status, print_module_status", "messages/src/message.rs: ExtendedStatus (FromStr)"]}
{"id": "C122", "title": "Peers of every version are treated alike", "statement": "Neither the version in the header of a received datagram nor the version of its message changes whether it decodes, what it decodes to, or what happens because of it: histories that differ in these versions only leave the request loop in the same state and have the same effects, apart from the versions shown in what is delivered (message version zero, below the smallest supported one, is kept apart). Module errors introduced by a later version have larger numbers than all earlier ones.", "quantifier": "all histories of events, all datagrams, all pairs of versions", "why_tests_cant": "any datagram of a history may come from a peer of another version, in any state of the loop", "anchors": ["messages/src/message.rs: version, Header, Message, HwError", "controller/src/ioloop.rs: handle_sp_response, handle_sp_error, handle_sp_request, run"]}
{"id": "C123", "title": "A response of an unsupported version is reported as such", "statement": "If a response for the request in progress does not decode and its version is outside the supported ones (1 to 7), the caller is told of a version mismatch with the current version and the version received; callers are told of a mismatch in no other case, unless the peer itself says so.", "quantifier": "all histories, all datagrams", "why_tests_cant": "all contents of datagrams of versions that do not exist yet", "anchors": ["controller/src/ioloop.rs: handle_sp_response", "messages/src/message.rs: version"]}
{"id": "C124", "title": "A reported protocol error is what the datagram stands for", "statement": "A datagram for the request in progress that is an error message, an error or response message that does not decode, a message of the wrong kind, or a response with too few bytes, fails that request with exactly the error it stands for and has no other effect; and a caller is told of a protocol error only because of such a datagram with its own message id, which stands for this error.", "quantifier": "all histories, all datagrams", "why_tests_cant": "all byte strings in all states of the loop", "anchors": ["controller/src/ioloop.rs: handle_sp_error, handle_sp_response, fail_matching_outstanding_request"]}
{"id": "C125", "title": "Written documents conform to the published schemas", "statement": "Every JSON document written for vendor information, monitors, datapaths, power modes and states, LED states and status conforms to the JSON schema that the crate publishes for the type, has no object with a name given twice, and so does everything the controller returns, whatever the SP sends.", "quantifier": "all values of the types; for datapaths all that can be decoded, from any bytes; all conversations", "why_tests_cant": "all combinations of optional fields, floating point values, lanes and codes", "anchors": ["decode/src/lib.rs: JsonSchema derives", "decode/src/datapath.rs: Datapath, CmisLaneStatus", "decode/src/monitors.rs: Monitors", "controller/src/lib.rs: PowerMode, PowerState", "messages/src/message.rs: Status, ExtendedStatus, LedState"]}
{"id": "C126", "title": "Schemas describe exactly the documents that are read", "statement": "A JSON document without repeated names conforms to the schema of a type if and only if it is read as a value of the type.", "quantifier": "all JSON documents without repeated names", "why_tests_cant": "all documents, of any depth and size", "anchors": ["decode/src/lib.rs: bitfield_enum", "decode/src/datapath.rs: SffComplianceCode, Datapath", "controller/src/lib.rs: PowerMode"]}
{"id": "C127", "title": "Retransmissions are a retry interval apart", "statement": "Two transmissions of the same request are at least one retry interval apart, also after idle times and when the loop is scheduled late; a caller is told that retries are exhausted only after the allowed number of transmissions, each followed by a whole interval, and so not before the limit times the interval has passed since the first; nor is it told of too many faulty messages within an interval of a transmission.", "quantifier": "all retry limits and intervals, all histories of submissions, datagrams, ticks, cancellations and passing time", "why_tests_cant": "all schedules and delays, of any length", "anchors": ["controller/src/ioloop.rs: IoLoop::new, send_outgoing_request, run (resend interval)"]}
{"id": "C128", "title": "Every request is answered within a bounded time", "statement": "A request submitted behind w unanswered others is answered at most (w+1) rounds later, where a round is max(1, retries) times the retry interval plus the lateness of the loop, as long as the loop runs, whatever datagrams arrive.", "quantifier": "all retry limits, intervals and latenesses, all histories in which the loop takes a tick that is due and a request that waits within the lateness", "why_tests_cant": "all schedules, all received datagrams, any number of waiting callers", "anchors": ["controller/src/ioloop.rs: run, send_outgoing_request"]}
{"id": "C129", "title": "Every operation ends within a bounded time", "statement": "With n tasks that use one controller, an operation that makes at most k requests has ended after k*n*max(1, retries)*(interval + lateness), whatever the SP and the network do: methods within their bounds on requests, an xcvradm command within 47 rounds. A task that has had j replies and is not done has not been at it for longer than (j+1)*n rounds.", "quantifier": "all programs, methods and commands; all numbers of tasks; all behaviours of network and SP, cancellations, deaths of the loop; all schedules in which tasks act at once and a due tick is taken within the lateness", "why_tests_cant": "all schedules and delays, any number of tasks sharing the channel", "anchors": ["controller/src/controller.rs: rpc, Controller::new", "controller/src/ioloop.rs: run, send_outgoing_request", "controller/src/lib.rs: NUM_OUTSTANDING_REQUESTS", "controller/src/bin/xcvradm.rs: main"]}
{"id": "C130", "title": "Time never stands still", "statement": "From every state reached, tasks and loop can go on promptly until all operations have ended: no state is reached in which somebody has to act at once and cannot.", "quantifier": "all programs with a bound on their requests, all prompt histories", "why_tests_cant": "all reachable states of any number of tasks", "anchors": ["controller/src/controller.rs: rpc", "controller/src/ioloop.rs: run"]}
{"id": "C131", "title": "Looking over an unreliable network changes nothing and shows what is there", "statement": "While all callers only look (inspecting methods, inspecting xcvradm commands), over a network that loses, delays, duplicates and reorders datagrams, no module changes; and every answer that any of them gets, however often its request was received and whichever copy was answered, shows the pins, LEDs and memory as they are. So what the methods return and what the tool prints is true of the modules.", "quantifier": "all histories of tasks, loop, network and SP; all boards of modules; all methods and commands that only look, run alone or together", "why_tests_cant": "all interleavings of several tasks, the loop and the network, with any number of copies of each datagram", "anchors": ["controller/src/controller.rs: Controller methods, rpc", "controller/src/ioloop.rs: run", "controller/src/bin/xcvradm.rs: main"]}
{"id": "C132", "title": "What is set over an unreliable network is what is there", "statement": "When a method that changes modules returns over an unreliable network, while other callers only look, the modules it reports as successes are as asked: the power state set, the pins, LEDs and memory set, reset over.", "quantifier": "all histories of tasks, loop, network and SP; all boards; all methods", "why_tests_cant": "depends on when which copy of a datagram is received; needs all schedules of the network", "anchors": ["controller/src/controller.rs: Controller methods, rpc", "controller/src/ioloop.rs: run", "controller/src/bin/xcvradm.rs: main"]}
{"id": "C133", "title": "Nobody else's modules are touched, whatever the network does", "statement": "A port that none of the running methods was given is as it was, at every moment of every history: during the methods, after they return, fail, panic or are dropped, and when copies of their requests arrive late.", "quantifier": "all lists of methods, all histories of tasks, loop, network and SP, all boards", "why_tests_cant": "all schedules and all moments, including requests of operations that were dropped", "anchors": ["controller/src/controller.rs: Controller methods, rpc", "controller/src/ioloop.rs: run", "controller/src/bin/xcvradm.rs: main"]}
{"id": "C134", "title": "Parsers given reads other than those asked for report an error", "statement": "The public parsers of decoded data, given a list of byte strings that is not what their reads would have returned (too few strings, too short ones), report an error instead of panicking; strings after those asked for do not matter.", "quantifier": "all identifiers, all lists of byte strings of any lengths, all five decoders", "why_tests_cant": "unbounded set of malformed inputs; which bytes are needed depends on what earlier bytes announce", "anchors": ["decode/src/lib.rs: ParseFromModule", "decode/src/power.rs: parse", "decode/src/memory_model.rs: parse", "decode/src/ident.rs: parse", "decode/src/monitors.rs: parse", "decode/src/datapath.rs: parse"]}
{"id": "C135", "title": "Probes of packets show what goes over the wire", "statement": "The DTrace probes packet__sent and packet__received show, in order and without loss or additions, the datagrams that the controller sends and those it takes in, with their lengths and bytes, and who sent those that came in.", "quantifier": "all histories of events of the loop, from any state", "why_tests_cant": "all histories, and all datagrams; probes are not observed by the tests at all", "anchors": ["controller/src/lib.rs: probes", "controller/src/ioloop.rs: IoLoop"]}
{"id": "C136", "title": "Probes of sent messages tell the receiver and the message", "statement": "The probes packet__sent and message__sent give the address that the packet was sent to, and the header and the message that are in it.", "quantifier": "all states and events of the loop", "why_tests_cant": "all datagrams from all peers", "anchors": ["controller/src/lib.rs: probes", "controller/src/ioloop.rs: IoLoop"]}
{"id": "C137", "title": "Every datagram leaves a trace, and bad ones are reported as bad", "statement": "Of every datagram taken in there is, after packet__received, a message__received or a bad__message; bad__message fires exactly for those that are not what they should be (unreadable, of a kind that hosts send, message not of the kind the header says, response to nothing or to another request, missing data), with a reason that tells the cause; what is reported as bad is not passed on.", "quantifier": "all states of the loop, all datagrams", "why_tests_cant": "all byte strings in all states", "anchors": ["controller/src/lib.rs: probes", "controller/src/ioloop.rs: IoLoop"]}
{"id": "C138", "title": "Probes tell what becomes of a request", "statement": "message__matched fires exactly when a valid response to the outstanding request comes, with that request and that response; message__timeout exactly when a request waited in vain for the retry interval, and a request is sent again only after it; message__dropped exactly when a request is given up, with the reason its caller is told.", "quantifier": "all states and events of the loop", "why_tests_cant": "all histories of losses, retries and faulty messages", "anchors": ["controller/src/lib.rs: probes", "controller/src/ioloop.rs: IoLoop"]}
{"id": "C139", "title": "Operations on different modules do not interfere", "statement": "Several hosts (controllers, runs of the tool), each with any number of tasks, can use the same SP at the same time. If only one task, of all of them, is given a module, then what becomes of that module is decided by what that task asked for, and what the task is told of it is right, as if it were alone. A module that no task is given stays as it is. The methods and the commands of the tool touch no other modules than they are given, so they need not be coordinated.", "quantifier": "all numbers of hosts and tasks, all programs of the tasks, all histories of all hosts, all interleavings at the SP, all losses, delays and copies made by the network (for changes, as far as C132 holds for a single host), and equal message ids on different hosts", "why_tests_cant": "the interleavings of several hosts over an unreliable network cannot be enumerated; the tests have one host and one request at a time", "anchors": ["controller/src/controller.rs: Controller", "controller/src/ioloop.rs: IoLoop", "controller/src/bin/xcvradm.rs: main"]}
{"id": "C140", "title": "Calls of tasks that share a controller take effect one at a time", "statement": "Tasks may use one controller at the same time. Whatever the schedule, the calls of all tasks that were answered can be put in one order, such that each task's calls are in the order it made them, a call that was answered before another was made comes before it, and the board ends where these calls take it, made one at a time and each once. Copies of a request that the controller sent again have no further effect.", "quantifier": "all numbers of tasks, all programs that make requests, all schedules of the tasks and of the I/O loop, all cancellations, all losses and delays, all copies that are not received after a later datagram, and every point of the history", "why_tests_cant": "a test sees one schedule; the claim is that an order exists for every one of them, also with requests that are sent again while others go on", "anchors": ["controller/src/controller.rs: Controller::rpc", "controller/src/ioloop.rs: IoLoop::run"]}
{"id": "C141", "title": "Setting the power of a module from several tasks at once leaves it in a state one of them set", "statement": "If several tasks set the power of the same module at the same time, to the same or to different states, and each was told that it succeeded, then the module ends off, in low power or in high power as one of these tasks asked for, although each of them makes many calls and these are mixed. No mixture leaves it in a state that nobody asked for, for example on when all turned it off, in reset when all turned it on, or with one task's low power pin and another's control byte.", "quantifier": "all numbers of tasks that set the module's power, all other tasks that spare the module, all interleavings of their calls, all initial states of the module, all histories as in C140", "why_tests_cant": "the number of ways to mix the calls of even two tasks is large, and the initial state, the module kind and the answers matter; the claim is about all of them", "anchors": ["controller/src/controller.rs: Controller::set_power", "controller/src/controller.rs: set_software_power_state"]}
{"id": "C142", "title": "A module that a command of the tool does not list as failed is as commanded", "statement": "When a run of xcvradm with a command that acts (reset, set-power, enable or disable power, assert or deassert reset or low power mode, clear a fault or latch, set LEDs, write memory) ends normally, without --ignore-errors, then every selected module that no failure line names is as the command says: in the power state asked for, out of reset with its other pins as before, with the pin, LED or bytes set. A port that was not selected is as it was before.", "quantifier": "all selections, all acting commands and arguments, all answers of the SP that conform to the protocol, with any modules failing at any step, all states of the ports before, all executions over the network in which the messages that change the port are received in order and acknowledged alike and no other task changes the port", "why_tests_cant": "The command is a sequence of up to ten requests in which modules drop out at any step; the lines printed come from merged bit masks and lists. Whether silence means success depends on the whole history of every module, and on which of the other modules selected were off, in reset, of another kind or under software override.", "anchors": ["controller/src/bin/xcvradm.rs: main", "controller/src/bin/xcvradm.rs: print_failures", "controller/src/controller.rs: Controller::set_power", "controller/src/controller.rs: Controller::set_software_power_state", "controller/src/controller.rs: Controller::reset", "controller/src/controller.rs: Controller::write"]}
{"id": "C143", "title": "What the tool shows is what is there, and so what it set before", "statement": "A run of xcvradm with power, leds, status, read-lower or read-upper that ends normally changes nothing, names every selected module exactly once, in a line of its table or in a failure line, and the line of a module gives the power state, the LED, the pins or the bytes that its port has. So when one run sets the power state, an LED, a pin or bytes of memory, and a later run shows them, with no other change between, then a module that neither run lists as failed is shown with what was set (low and high power: under the conditions of C142), bytes around those written are shown unchanged, and a module that the first run did not select is shown as it was before it.", "quantifier": "all selections of both runs, all arguments, both forms of output, all conforming answers of the SP with any modules failing at any step, all states of the ports before; for status, also SPs that do not know the extended status", "why_tests_cant": "The claim joins selection, requests, merging of partial failures, decoding and printing over two runs; it depends on all earlier contents of each module and on every way that modules can drop out of either run.", "anchors": ["controller/src/bin/xcvradm.rs: main", "controller/src/bin/xcvradm.rs: print_power_mode", "controller/src/bin/xcvradm.rs: print_led_state", "controller/src/bin/xcvradm.rs: print_module_status", "controller/src/bin/xcvradm.rs: print_read_data", "controller/src/controller.rs: Controller::power", "controller/src/controller.rs: Controller::leds", "controller/src/controller.rs: Controller::read", "controller/src/controller.rs: Controller::write"]}
{"id": "C144", "title": "Commands, writes and resets from several tasks are atomic on a module", "statement": "When several tasks share a controller and each of them either leaves a module alone or changed it with success by one of the single-step commands, a memory write or a reset, then the module ends in the state that these operations produce when made one after the other, each exactly once, in some order; an operation that had returned before another sent anything comes first in that order. So the LED, each pin and each byte of memory end with the value that one of the tasks that set them gave, or unchanged if no task set them; writes to different bytes are all present; a reset whose two steps are mixed with other tasks' calls still leaves the module out of reset unless another task asserted reset.", "quantifier": "all numbers of tasks, all schedules, all module sets and arguments, all conforming answers with any modules failing, all losses and repetitions of datagrams in which no copy that is to change the module is received after a later datagram and copies are acknowledged alike", "why_tests_cant": "It ranges over every interleaving of the calls of any number of tasks, including those in which a reset is half done while other tasks write; a test sees one interleaving.", "anchors": ["controller/src/controller.rs: Controller::reset", "controller/src/controller.rs: Controller::write", "controller/src/controller.rs: Controller::set_leds", "controller/src/controller.rs: Controller::enable_power", "controller/src/controller.rs: Controller::rpc", "controller/src/ioloop.rs: IoLoop::run"]}
{"id": "C145", "title": "Operations of several tasks on a module are linearizable", "statement": "When several tasks share a controller and each of them either leaves a module alone or returned success for it from one of the single-step commands, a memory write, or a query of the status, the extended status, the LED or memory, then there is one order of all these operations such that each command or write acts on the module as the operation before it left it, each query returns exactly the pins, LED or bytes that the operations before it left, and an operation that had returned before another sent anything comes first. So a query that begins after an operation has returned tells what that operation set, if no other task sets it; and a read never returns a mixture of bytes from before and after a write.", "quantifier": "all numbers of tasks, all schedules, all module sets, arguments and read lengths other than zero, all conforming answers with any modules failing, all losses and repetitions of datagrams in which no copy that is to change the module is received after a later datagram and copies are acknowledged alike", "why_tests_cant": "It ranges over every interleaving of the calls of any number of tasks, and asserts that one order explains all answers at once.", "anchors": ["controller/src/controller.rs: Controller::status", "controller/src/controller.rs: Controller::extended_status", "controller/src/controller.rs: Controller::leds", "controller/src/controller.rs: Controller::read", "controller/src/controller.rs: Controller::write", "controller/src/controller.rs: Controller::rpc", "controller/src/ioloop.rs: IoLoop::run"]}
{"id": "C146", "title": "Operations of several hosts on the same module act one at a time", "statement": "When several hosts, each with its own controllers, message ids and sockets, use one SP, there is one order of all calls of all tasks on all hosts that were answered. Each task's calls are in it in the order it made them, what was answered on any host by some moment comes before what is called for later on any host, and the module ends where these calls take it, one at a time and each once. So single-step commands, writes and resets of different hosts act on a module one after the other and each as a whole; queries of the status, the LED or memory return what the operations before them left; and when several hosts set the power of a module, it ends in the state one of them asked for. This is with copies of a datagram that is to change the module received before any later datagram of any host; see C147.", "quantifier": "all numbers of hosts and of tasks on each, all schedules of each, all orders in which the SP serves them, all module sets and arguments, all conforming answers, all losses and delays with the stated order of copies", "why_tests_cant": "It ranges over every interleaving of the histories of any number of hosts.", "anchors": ["controller/src/controller.rs: Controller::rpc", "controller/src/controller.rs: Controller::next_id", "controller/src/controller.rs: Controller::reset", "controller/src/controller.rs: Controller::set_power", "controller/src/controller.rs: Controller::write", "controller/src/ioloop.rs: IoLoop::run"]}
{"id": "C147", "title": "Sending a request again does not undo what another host did since", "statement": "When several hosts use one SP over networks that lose and delay datagrams but neither copy nor reorder those of a host, operations on a module are as if done one at a time, each between its beginning and its end. In particular, an operation of one host that completed is not undone because another host sends a request again that was served before it.", "quantifier": "all numbers of hosts and tasks, all schedules, losses and delays, all numbers of tries", "why_tests_cant": "It needs an answer that is lost and another host's operation in the time before the request is sent again.", "anchors": ["controller/src/ioloop.rs: IoLoop::run", "controller/src/ioloop.rs: IoLoop::send_outgoing_request", "controller/src/controller.rs: Controller::rpc", "controller/src/controller.rs: Controller::set_leds"]}
{"id": "C148", "title": "A query makes up no value for a module that an answer leaves out", "statement": "An answer of the SP names the modules it has data of and those that failed; it may name a module it was asked about in neither. A query for power control words, vendor information, monitors or datapaths then stops with a panic, whatever the other answers are: it returns no value and no error for that module. The query for memory models does so too, unless the first answer has the module and says that its memory is flat; then the second read is not needed, and the module is reported as flat.", "quantifier": "all module sets, all identifiers of modules and all kinds among them, all answers to the reads, all modules left out of any of them", "why_tests_cant": "It ranges over all answers, and concerns answers that a correct SP does not give.", "anchors": ["controller/src/controller.rs: Controller::parse_modules_by_identifier", "decode/src/memory_model.rs: MemoryModel::parse", "decode/src/monitors.rs: Monitors::parse", "decode/src/datapath.rs: Datapath::parse", "decode/src/ident.rs: VendorInfo::parse", "decode/src/power.rs: PowerControl::parse"]}
{"id": "C149", "title": "Within a command each option letter and name means one option", "statement": "Within a command of the command line tool no two options share a letter or a long name.", "quantifier": "all commands of the tool, all pairs of their options", "why_tests_cant": "The letters are derived from field names and spread over structs that are taken into each other; no test goes through all pairs in all commands, and the check that clap makes is compiled only into debug builds.", "anchors": ["controller/src/bin/xcvradm.rs: Args, Cmd, ParsableArgs"]}
{"id": "C150", "title": "The declared rules between options are enough for the tool", "statement": "For every set of arguments that the declared rules between options let through, none of the branches of the tool that are marked unreachable is reached: the kind of module is named once, a file comes with a kind of input, and the forms of status are not mixed.", "quantifier": "all commands and all combinations of their arguments, all selections, all SP behaviours", "why_tests_cant": "It ranges over all combinations of arguments of all commands, most of which no test gives.", "anchors": ["controller/src/bin/xcvradm.rs: Cmd, ParsableArgs, main, load_write_data, print_module_status"]}
{"id": "C151", "title": "Options that would have no effect are refused", "statement": "The rules between options refuse every option that would have no effect in its place: a choice of fields or a separator without the parseable form, a bank for a module that is not CMIS, --omit-header where no header can be left out.", "quantifier": "all commands and all combinations of their arguments, all selections, all SP behaviours", "why_tests_cant": "It ranges over all combinations of arguments and compares the behaviour of whole runs, for every SP.", "anchors": ["controller/src/bin/xcvradm.rs: Cmd, ParsableArgs, main, print_module_status, print_monitors"]}
{"id": "C152", "title": "What the tool prints can be given back to it", "statement": "Values in the output of the tool are taken back where the same kind of value is an argument, and mean the same: the names in a header as --output, the ports of a table as --transceivers, the flags of a status as --with or --without, the states of LEDs as the argument of set-leds and power states as that of set-power.", "quantifier": "all lists of fields of each command, all nonempty lists of ports, in either form of output, all status words, all states", "why_tests_cant": "It relates what a printer writes to what a parser accepts for all values and all lists of them.", "anchors": ["controller/src/bin/xcvradm.rs: parse_transceivers, print_power_mode, print_led_state, print_module_status, ParsableArgs, StatusFields, PowerFields, IdentifyFields, VendorInfoFields, ReadDataFields, MemoryModelFields, LedFields, MonitorFields", "controller/src/lib.rs: PowerState", "messages/src/message.rs: LedState"]}
{"id": "C153", "title": "Data that was read can be written back as it was printed", "statement": "The bytes that read-lower and read-upper print of a module, given as the input of write-lower or write-upper, are taken as the same bytes, whether the kind of input is stated or detected; at least they are never taken as other bytes.", "quantifier": "all data that a read can print of one module, in hexadecimal and in binary", "why_tests_cant": "It relates a printer to a parser for all data of all lengths up to a page; the limits appear only at certain lengths.", "anchors": ["controller/src/bin/xcvradm.rs: print_read_data, load_write_data, load_known_write_data, load_write_data_autodetect_kind"]}
{"id": "C154", "title": "Doing an operation again changes nothing more", "statement": "If an operation that acts on modules is done a second time, with nothing in between that acts on a module, and succeeds for the module both times, then the second time leaves the module as the first time left it: a write, an LED and the low power pin everything, operations that switch power or reset the pins and the LED, and setting the power the power state and the pins.", "quantifier": "all operations that act on modules, all selections for the first and for the second time, all SP behaviours that answer properly, all queries and operations on other modules in between, all states of the board", "why_tests_cant": "It compares the states of a board after two histories of any length, for all boards and all answers.", "anchors": ["controller/src/controller.rs: write, reset, set_power, enable_power, disable_power, assert_reset, deassert_reset, assert_lpmode, deassert_lpmode, clear_power_fault, clear_disable_latch, set_leds"]}
{"id": "C155", "title": "Writing back what was read restores the module", "statement": "If data that was read from a module is written back to where it was read from, and nothing but those bytes of the module and its port has changed meanwhile, then the port and the module's memory are as they were when the data was read. In particular, writing back at once what was read changes nothing.", "quantifier": "all legal reads of a nonzero length and writes to the same place, all selections, all SP behaviours that answer properly, all states of the board, all changes to those bytes in between", "why_tests_cant": "It compares the whole state of a port after two histories, for all places, lengths, contents and boards.", "anchors": ["controller/src/controller.rs: read, write, read_impl, write_impl"]}
{"id": "C156", "title": "A command leaves the rest of the modules it acts on as it was", "statement": "A command of the tool changes nothing of the modules it acts on but what it is for: no command other than set-leds changes an LED; the reset pin changes only by reset, assert-reset, deassert-reset and set-power; the supply only by set-power, enable-power and disable-power; the low power pin only by set-power, assert-lpmode and deassert-lpmode; and a byte of memory only by commands that switch reset or supply and by a write of a range on a page that contains it.", "quantifier": "All commands, selections, options, answers of the SP and outcomes, including runs that end in an error; all states of the port; every port for which the requests that were to change it were acknowledged, and, against a conforming SP, every port that the list of failures does not name.", "why_tests_cant": "The commands share code that issues several requests depending on the answers; a test fixes the answers and looks at the few things it expects to change.", "anchors": ["controller/src/bin/xcvradm.rs: main", "controller/src/controller.rs: set_power, reset, write"]}
{"id": "C157", "title": "Setting low or high power does not restart a module that runs", "statement": "Setting low or high power of a module that has power and is not in reset neither resets it nor switches its supply: no such request names it, however the call ends. Unless the module is reported as a failure, its supply, reset and LED stay as they were, and so does its memory up to the two bytes with which power is controlled. Every module of the call that is not reported as a failure ends up with power and out of reset, whatever the others are like.", "quantifier": "All sets of modules, including sets in which other modules are off and are started by the same call; all states of the ports; all answers of a conforming SP; all outcomes.", "why_tests_cant": "Whether a module is restarted depends on the status bits of all modules in the call, on failures in earlier steps and on which groups are formed; a test sees a few mixtures, while a restart that happens in another one drops a live link.", "anchors": ["controller/src/controller.rs: set_power, set_software_power_state"]}
{"id": "C158", "title": "Setting high power is for modules that run, and changes nothing otherwise", "statement": "Setting high power never resets a module or switches its supply, whatever state the modules are in and however the call ends. If it succeeds, each module of the set that is not reported as a failure had power and was out of reset before. If a call is refused as an invalid power state transition, high power was asked for, some module of the set is off, and no port has changed, not even those whose modules run.", "quantifier": "All sets of modules; all states of the ports; all answers of a conforming SP; all outcomes. For the tool: all selections.", "why_tests_cant": "The check is made on one report, and the steps follow a second one taken later; that nothing is started in between must hold for every mixture of modules that are off, in reset, running or failing.", "anchors": ["controller/src/controller.rs: set_power, power", "controller/src/bin/xcvradm.rs: main"]}
{"id": "C159", "title": "Setting power switches a supply only while the module is in reset", "statement": "When the power of modules is set, a request to switch the supply of a module on or off is made only when that module is in reset.", "quantifier": "All sets of modules and all power states asked for; all states of the ports before; all answers of a conforming SP; all outcomes; every request of the run that switches a supply.", "why_tests_cant": "The requests of a call name different subsets of its modules, formed from the status bits and from the failures of earlier steps; that none of them names a module that is not in reset must hold for every mixture of states and failures.", "anchors": ["controller/src/controller.rs: set_power"]}
{"id": "C160", "title": "Setting power takes a module out of reset only with its supply on and its low power pin set", "statement": "When low or high power is set, a request to take a module out of reset is made only when the supply of that module is on and its low power pin says what was asked for. Powering off takes no module out of reset.", "quantifier": "All sets of modules and all power states asked for; all states of the ports before; all answers of a conforming SP; all outcomes; every request of the run that takes a module out of reset.", "why_tests_cant": "The order of the steps protects modules against being powered through their pins; whether it is kept for a module depends on which subsets the earlier steps were made for and on their failures, of which tests try a few.", "anchors": ["controller/src/controller.rs: set_power"]}
{"id": "C161", "title": "A module is taken out of reset only when it is in reset", "statement": "Whenever reset or set_power asks for a module to be taken out of reset, the module is in reset, so that it has been through a whole reset.", "quantifier": "All sets of modules and all power states asked for; all states of the ports before; all answers of a conforming SP; all outcomes; every request of the run that takes a module out of reset.", "why_tests_cant": "Each step is made for a set computed from the answers to earlier steps; that no module is named in the release without having been put in reset must hold for every mixture of states and failures.", "anchors": ["controller/src/controller.rs: reset, set_power"]}

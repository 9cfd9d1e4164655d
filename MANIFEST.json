{
 "claims": [
  {
   "property": "C01",
   "status": "proved",
   "theorems": [
    "Xcvr.C01_set_operations",
    "Xcvr.C01_extensional",
    "Xcvr.C01_queries",
    "Xcvr.C01_single_port",
    "Xcvr.C01_invalid_port",
    "Xcvr.C01_contains_unchecked"
   ],
   "note": "Set semantics of every operation. C01_contains_unchecked records that contains() aborts for ports >= 64."
  },
  {
   "property": "C02",
   "status": "proved",
   "theorems": [
    "Xcvr.C02_listing",
    "Xcvr.C02_from_indices_ok",
    "Xcvr.C02_from_indices_err",
    "Xcvr.C02_from_indices_iff",
    "Xcvr.C02_roundtrip"
   ],
   "note": "Induction over the port list."
  },
  {
   "property": "C03",
   "status": "proved",
   "theorems": [
    "Xcvr.C03_merge"
   ],
   "note": "Merge loop refined to finite maps."
  },
  {
   "property": "C04",
   "status": "proved",
   "theorems": [
    "Xcvr.C04_remove",
    "Xcvr.C04_keep",
    "Xcvr.C04_filter",
    "Xcvr.C04_filter_ports"
   ],
   "note": "All three functions."
  },
  {
   "property": "C05",
   "status": "proved",
   "theorems": [
    "Xcvr.C05_addresses",
    "Xcvr.C05_distinct",
    "Xcvr.C05_new_total"
   ],
   "note": "All bases, counts, strides and positions."
  },
  {
   "property": "C06",
   "status": "partial",
   "theorems": [
    "Xcvr.C06_counterexample",
    "Xcvr.C06_false",
    "Xcvr.C06_exact_partial",
    "Xcvr.C06_sound"
   ],
   "note": "False of the code: C06_false. C06_exact_partial is the exact acceptance condition (one address too strict); C06_sound is the safe half."
  },
  {
   "property": "C07",
   "status": "proved",
   "theorems": [
    "Xcvr.C07_nth_end",
    "Xcvr.C07_iterate"
   ],
   "note": "Any number of next() calls."
  },
  {
   "property": "C08",
   "status": "partial",
   "theorems": [
    "Xcvr.C08_counterexample",
    "Xcvr.C08_false",
    "Xcvr.C08_exact_partial",
    "Xcvr.C08_validated_partial"
   ],
   "note": "False of the code: C08_false (an unvalidated wire range overflows). C08_exact_partial is the exact abort condition; C08_validated_partial covers ranges from a validating peer."
  },
  {
   "property": "C09",
   "status": "proved",
   "theorems": [
    "Xcvr.C09_read_generic",
    "Xcvr.C09_write_generic",
    "Xcvr.C09_sff_read",
    "Xcvr.C09_sff_write",
    "Xcvr.C09_cmis_read",
    "Xcvr.C09_cmis_write",
    "Xcvr.C09_halves"
   ],
   "note": "Both interfaces, reads and writes."
  },
  {
   "property": "C10",
   "status": "partial",
   "theorems": [
    "Xcvr.C10_sff",
    "Xcvr.C10_cmis_banked",
    "Xcvr.C10_cmis_unbanked_counterexample",
    "Xcvr.C10_cmis_unbanked_false",
    "Xcvr.C10_cmis_unbanked_partial"
   ],
   "note": "SFF-8636 and banked CMIS proved in full; false for unbanked CMIS pages (C10_cmis_unbanked_false), exact behaviour in C10_cmis_unbanked_partial."
  },
  {
   "property": "C11",
   "status": "proved",
   "theorems": [
    "Xcvr.C11_sff_read",
    "Xcvr.C11_cmis_read",
    "Xcvr.C11_cmis_write",
    "Xcvr.C11_sff_write"
   ],
   "note": "Induction on the remaining range; all four instances."
  },
  {
   "property": "C12",
   "status": "partial",
   "theorems": [
    "Xcvr.C12_counterexample",
    "Xcvr.C12_false",
    "Xcvr.C12_exact_partial"
   ],
   "note": "False of the code: C12_false. C12_exact_partial gives the exact condition."
  },
  {
   "property": "C13",
   "status": "proved",
   "theorems": [
    "Xcvr.C13_header",
    "Xcvr.C13_message",
    "Xcvr.C13_packet",
    "Xcvr.C13_header_layout",
    "Xcvr.C13_request_layout",
    "Xcvr.C13_response_layout"
   ],
   "note": "All header and message values, arbitrary trailing bytes; byte layout also pinned."
  },
  {
   "property": "C14",
   "status": "proved",
   "theorems": [
    "Xcvr.C14_header",
    "Xcvr.C14_message",
    "Xcvr.C14_injective",
    "Xcvr.C14_no_reserved_bodies"
   ],
   "note": "All byte strings."
  },
  {
   "property": "C15",
   "status": "proved",
   "theorems": [
    "Xcvr.C15_header",
    "Xcvr.C15_message",
    "Xcvr.C15_message_tight",
    "Xcvr.C15_packet"
   ],
   "note": "Exact header size; maximum message size and its tightness."
  },
  {
   "property": "C16",
   "status": "proved",
   "theorems": [
    "Xcvr.C16_exact",
    "Xcvr.C16_short",
    "Xcvr.C16_none"
   ],
   "note": "Per-port attribution; all 256 codes."
  },
  {
   "property": "C17",
   "status": "partial",
   "theorems": [
    "Xcvr.C17_counterexample",
    "Xcvr.C17_false",
    "Xcvr.C17_prefix_partial"
   ],
   "note": "False of the code: C17_false. C17_prefix_partial gives the exact result; C26 shows the request loop never passes an excess."
  },
  {
   "property": "C18",
   "status": "proved",
   "theorems": [
    "Xcvr.C18_refused",
    "Xcvr.C18_merge"
   ],
   "note": "Finite-map refinement; exact refusal condition."
  },
  {
   "property": "C19",
   "status": "proved",
   "theorems": [
    "Xcvr.C19_refused",
    "Xcvr.C19_append"
   ],
   "note": "Finite-map refinement; exact refusal condition."
  },
  {
   "property": "C20",
   "status": "proved",
   "theorems": [
    "Xcvr.C20_lookup",
    "Xcvr.C20_present",
    "Xcvr.C20_iter",
    "Xcvr.C20_success",
    "Xcvr.C20_is_success",
    "Xcvr.C20_ack"
   ],
   "note": "All lookups, iteration and success()."
  },
  {
   "property": "C21",
   "status": "proved",
   "theorems": [
    "Xcvr.C21_order",
    "Xcvr.C21_once",
    "Xcvr.C21_one_at_a_time",
    "Xcvr.C21_accounted"
   ],
   "note": "Over every event history of the loop model. Callers are identified by their response channel; distinctness of submitted channels is a hypothesis where needed (each call creates its own)."
  },
  {
   "property": "C22",
   "status": "proved",
   "theorems": [
    "Xcvr.C22_own_response",
    "Xcvr.C22_foreign"
   ],
   "note": "Own id, kind and body are read off the raw datagram by the wire decoder; foreign or stale datagrams answer nobody."
  },
  {
   "property": "C23",
   "status": "proved",
   "theorems": [
    "Xcvr.C23_bounded_identical",
    "Xcvr.C23_max_retries"
   ],
   "note": "Limit None is 2^64-1."
  },
  {
   "property": "C24",
   "status": "partial",
   "theorems": [
    "Xcvr.C24_counterexample",
    "Xcvr.C24_partial"
   ],
   "note": "False of the code: a datagram can kill the loop (C24_counterexample). Proved: answered within max(1, limit) ticks unless the loop's task has died."
  },
  {
   "property": "C25",
   "status": "proved",
   "theorems": [
    "Xcvr.C25_threshold",
    "Xcvr.C25_foreign_response"
   ],
   "note": "n is exactly the number of faulty events since acceptance."
  },
  {
   "property": "C26",
   "status": "proved",
   "theorems": [
    "Xcvr.C26_delivered",
    "Xcvr.C26_matching",
    "Xcvr.C26_sizes"
   ],
   "note": "Exact outcome of a matching response, and exact payload length of any delivered response."
  },
  {
   "property": "C27",
   "status": "partial",
   "theorems": [
    "Xcvr.C27_counterexample",
    "Xcvr.C27_false",
    "Xcvr.C27_exact_partial"
   ],
   "note": "False of the code: a bare SpResponse header panics the task. Proved: that is the only datagram that does, when handler and caller are alive."
  },
  {
   "property": "C28",
   "status": "partial",
   "theorems": [
    "Xcvr.C28_counterexample",
    "Xcvr.C28_false",
    "Xcvr.C28_after_answer_partial"
   ],
   "note": "False of the code: a caller that gives up before its answer kills the loop. Proved: giving up after the answer changes no later effect."
  },
  {
   "property": "C29",
   "status": "proved",
   "theorems": [
    "Xcvr.C29_controller",
    "Xcvr.C29_decodable",
    "Xcvr.C29_fits",
    "Xcvr.C29_accept_survives",
    "Xcvr.C29_resend_survives"
   ],
   "note": "Bytes decode to the submitted request; data up to 1024 bytes always fits; no method of the controller sends more than 291 bytes (C29_controller)."
  },
  {
   "property": "C30",
   "status": "partial",
   "theorems": [
    "Xcvr.C30_counterexample",
    "Xcvr.C30_false",
    "Xcvr.C30_partial"
   ],
   "note": "False of the code for HostRequest/HostResponse datagrams: the received header is echoed. Proved: id echoed always, kind Error for undecodable SP requests, no other sources."
  },
  {
   "property": "C31",
   "status": "partial",
   "theorems": [
    "Xcvr.C31_counterexample",
    "Xcvr.C31_false",
    "Xcvr.C31_partial",
    "Xcvr.C31_header_ignored_partial"
   ],
   "note": "False of the code: the header is not sent. Proved: message then data."
  },
  {
   "property": "C32",
   "status": "proved",
   "theorems": [
    "Xcvr.C32_distinct"
   ],
   "note": "For any starting counter and up to 2^64 calls in the order of their fetch_add; each request also carries its own call's message, data and kind."
  },
  {
   "property": "C33",
   "status": "proved",
   "theorems": [
    "Xcvr.C33_split"
   ],
   "note": "For all module sets and all reads of at least one byte; any proper answer to a group has at most 1024 bytes of data and errors."
  },
  {
   "property": "C34",
   "status": "proved",
   "theorems": [
    "Xcvr.C34_read",
    "Xcvr.C34_exactly_once"
   ],
   "note": "Over all runs of Controller::read whose exchanges are proper answers: each port of the addressed set is reported once, with the SP's bytes or the SP's error."
  },
  {
   "property": "C35",
   "status": "proved",
   "theorems": [
    "Xcvr.C35_read",
    "Xcvr.C35_read_any_sp",
    "Xcvr.C35_write_any_sp"
   ],
   "note": "C35_read and C36_write give the exact outcome against a proper SP; C35_read_any_sp and C35_write_any_sp bound what is sent whatever the SP answers."
  },
  {
   "property": "C36",
   "status": "proved",
   "theorems": [
    "Xcvr.C36_write"
   ],
   "note": "Exactly one of three outcomes, each with the exact exchanges. The length is checked after identification, so a refused write still sends identification reads."
  },
  {
   "property": "C37",
   "status": "partial",
   "theorems": [
    "Xcvr.C37_counterexample",
    "Xcvr.C37_false",
    "Xcvr.C37_partial"
   ],
   "note": "False as stated: a write addressing n modules declares n times its length but carries its data once (C37_counterexample, C37_false). C37_partial: it holds of every request of every public method except a write to other than one module; a write always carries exactly its own length."
  },
  {
   "property": "C38",
   "status": "proved",
   "theorems": [
    "Xcvr.C38_reset"
   ],
   "note": "Over all runs with proper answers."
  },
  {
   "property": "C39",
   "status": "proved",
   "theorems": [
    "Xcvr.C39_one_request",
    "Xcvr.C39_one_status",
    "Xcvr.C39_command",
    "Xcvr.C39_status",
    "Xcvr.C39_extended_status",
    "Xcvr.C39_leds",
    "Xcvr.C39_mac_addrs"
   ],
   "note": "Exactly one request whatever the SP answers; results equal the response against a proper SP."
  },
  {
   "property": "C40",
   "status": "partial",
   "theorems": [
    "Xcvr.C40_wrong_kind_partial",
    "Xcvr.C40_counterexample",
    "Xcvr.C40_false",
    "Xcvr.C40_proper_partial"
   ],
   "note": "False as stated: unknown LED states, unknown extended-status flags and a read echoed with another length panic, and a wrong kind is reported as UnexpectedMessage (C40_counterexample, C40_false). C40_wrong_kind_partial: an answer of the wrong kind is an error, for every operation. C40_proper_partial: against an SP whose responses answer the requests, no method aborts, whatever errors the I/O loop reports, unless a CMIS module returned one of the reserved codes of C53."
  },
  {
   "property": "C41",
   "status": "proved",
   "theorems": [
    "Xcvr.C41_attributed",
    "Xcvr.C41_decoders",
    "Xcvr.C41_module",
    "Xcvr.C41_memory",
    "Xcvr.C41_no_abort"
   ],
   "note": "For every decoder with non-empty reads (all five qualify, C41_decoders) and every run with proper answers. Runs that do not return a result are characterised: an unsupported identifier, or a decoder that aborts on the module's own bytes (see C53)."
  },
  {
   "property": "C42",
   "status": "partial",
   "theorems": [
    "Xcvr.C42_counterexample",
    "Xcvr.C42_false",
    "Xcvr.C42_partial",
    "Xcvr.C42_same_kind_partial"
   ],
   "note": "False of the code: errors are collected in the order of processing (identification failures, then kind by kind) but paired with ports in port order. C42_counterexample/C42_false; C42_partial states the actual order and that attribution is right when that order is the port order."
  },
  {
   "property": "C43",
   "status": "proved",
   "theorems": [
    "Xcvr.C43_power_off"
   ],
   "note": "For every SP that answers properly. The order, the exact target of each step and the per-module report."
  },
  {
   "property": "C44",
   "status": "proved",
   "theorems": [
    "Xcvr.C44_any_sp",
    "Xcvr.C44_high"
   ],
   "note": "C44_any_sp is for arbitrary SP answers, in terms of the power report; C44_high is for proper answers, in terms of the status bytes (the error is that of an unsupported kind if the power report fails for that reason)."
  },
  {
   "property": "C45",
   "status": "partial",
   "theorems": [
    "Xcvr.C45_override_counterexample",
    "Xcvr.C45_mixed_counterexample",
    "Xcvr.C45_twice_counterexample",
    "Xcvr.C45_false",
    "Xcvr.C45_powered_partial",
    "Xcvr.C45_unpowered_partial",
    "Xcvr.C45_silent_partial",
    "Xcvr.C45_missing_partial",
    "Xcvr.C45_twice_partial"
   ],
   "note": "False: C45_override_counterexample (a module under software override is never reported), C45_mixed_counterexample (powered modules are dropped if another is off), C45_twice_counterexample (success and failure at once). C45_powered_partial and C45_unpowered_partial prove it for modules of one kind in a uniform state. For modules of one kind, C45_silent_partial says exactly which modules are left out of the report (powered while another is not, or under software override) and C45_twice_partial why one is reported twice; C45_missing_partial names all reasons for any mixture of kinds."
  },
  {
   "property": "C46",
   "status": "proved",
   "theorems": [
    "Xcvr.C46_low",
    "Xcvr.C46_reach_counterexample"
   ],
   "note": "Proved for every conforming run. Not every powered module is reached: C46_reach_counterexample."
  },
  {
   "property": "C47",
   "status": "partial",
   "theorems": [
    "Xcvr.C47_counterexample",
    "Xcvr.C47_skipped_counterexample",
    "Xcvr.C47_own_byte_partial",
    "Xcvr.C47_one_kind_partial",
    "Xcvr.C47_reached_partial"
   ],
   "note": "False for sets of more than one kind: C47_counterexample (override removed), C47_skipped_counterexample (not written at all). C47_own_byte_partial holds always. For modules of one kind, C47_one_kind_partial shows that the override is kept, and C47_reached_partial that each powered module not reported as failed got the requested power."
  },
  {
   "property": "C48",
   "status": "proved",
   "theorems": [
    "Xcvr.C48_report",
    "Xcvr.C48_module",
    "Xcvr.C48_memory"
   ],
   "note": "C48_report in terms of the exchanges, C48_memory in terms of the modules' memories; held in reset counts as off, as in the code."
  },
  {
   "property": "C49",
   "status": "proved",
   "theorems": [
    "Xcvr.C49_sff",
    "Xcvr.C49_cmis",
    "Xcvr.C49_refused"
   ],
   "note": "For all bytes agreeing on the two bits; also that other kinds are refused."
  },
  {
   "property": "C50",
   "status": "proved",
   "theorems": [
    "Xcvr.C50_round_trip",
    "Xcvr.C50_listed",
    "Xcvr.C50_unlisted",
    "Xcvr.C50_datapath_state",
    "Xcvr.C50_datapath_names"
   ],
   "note": "All ten code tables and the datapath state field; listed codes give the listed variant."
  },
  {
   "property": "C51",
   "status": "partial",
   "theorems": [
    "Xcvr.C51_tables_partial",
    "Xcvr.C51_datapath_state_partial",
    "Xcvr.C51_counterexample",
    "Xcvr.C51_false",
    "Xcvr.C51_ethernet_partial"
   ],
   "note": "False for Ethernet compliance codes without exactly one known bit (C51_counterexample); proved for all ten tables, the datapath state, and the seven named Ethernet codes."
  },
  {
   "property": "C52",
   "status": "partial",
   "theorems": [
    "Xcvr.C52_accepts_partial",
    "Xcvr.C52_round_trip",
    "Xcvr.C52_counterexample"
   ],
   "note": "Round trip proved for all OUIs. The second half is false of the code: a plus sign and single digits are accepted; the exact set of accepted strings is proved."
  },
  {
   "property": "C53",
   "status": "partial",
   "theorems": [
    "Xcvr.C53_sff",
    "Xcvr.C53_cmis_partial",
    "Xcvr.C53_counterexample"
   ],
   "note": "True of SFF-8636 for all memories; for CMIS the exact abort conditions are proved (reserved bank code, reserved bias multiplier, unknown media type, unlisted application) and shown reachable, so the full property is false of the code."
  },
  {
   "property": "C54",
   "status": "proved",
   "theorems": [
    "Xcvr.C54_sff",
    "Xcvr.C54_cmis",
    "Xcvr.C54_refused"
   ],
   "note": "All five decoders, all identifiers."
  },
  {
   "property": "C55",
   "status": "proved",
   "theorems": [
    "Xcvr.C55_sff",
    "Xcvr.C55_cmis",
    "Xcvr.C55_text_unique"
   ],
   "note": "All memories; text specified by UTF-8 encoding and shown unique."
  },
  {
   "property": "C56",
   "status": "proved",
   "theorems": [
    "Xcvr.C56_sff",
    "Xcvr.C56_cmis"
   ],
   "note": "Values rounded to single precision as the code does (C100 bounds the error). CMIS for modules whose bias multiplier is not reserved (see C53)."
  },
  {
   "property": "C57",
   "status": "partial",
   "theorems": [
    "Xcvr.C57_counterexample",
    "Xcvr.C57_partial",
    "Xcvr.C57_presence_partial"
   ],
   "note": "False of the code: the presence mask covers temperature and voltage and misses the custom monitor, and cooler current is read unsigned. Negation by witness; proved where aux1-3 are advertised or nothing confusing is, and no cooler current is negative; exact presence condition proved."
  },
  {
   "property": "C58",
   "status": "proved",
   "theorems": [
    "Xcvr.C58_sff",
    "Xcvr.C58_cmis"
   ],
   "note": "CMIS for modules whose bank code is not reserved (see C53)."
  },
  {
   "property": "C59",
   "status": "proved",
   "theorems": [
    "Xcvr.C59_lanes"
   ],
   "note": "All memories."
  },
  {
   "property": "C60",
   "status": "proved",
   "theorems": [
    "Xcvr.C60_grouped",
    "Xcvr.C60_succeeds"
   ],
   "note": "All memories for which decoding succeeds; the exact success condition is C60_succeeds with C53_cmis_partial."
  },
  {
   "property": "C61",
   "status": "partial",
   "theorems": [
    "Xcvr.C61_partial",
    "Xcvr.C61_counterexample"
   ],
   "note": "False of the code: the nibbles are swapped and the top bit is dropped. Negation by witness; the actual rule is proved for all memories."
  },
  {
   "property": "C62",
   "status": "proved",
   "theorems": [
    "Xcvr.C62_words",
    "Xcvr.C62_lists",
    "Xcvr.C62_refused"
   ],
   "note": "For every string: the words mean the documented selections, a list is accepted exactly when it is a port list by the grammar in Spec/Cli.lean and then selects exactly the listed ports, and everything else is refused. Lower-casing of non-ASCII text is a parameter."
  },
  {
   "property": "C63",
   "status": "partial",
   "theorems": [
    "Xcvr.C63_outcome_partial",
    "Xcvr.C63_counterexample",
    "Xcvr.C63_false",
    "Xcvr.C63_data"
   ],
   "note": "False of the code: a module failing any chunk but the last makes the tool abort (C63_false). Proved: the complete case distinction of outcomes for every conforming SP (C63_outcome_partial), and that a successful command lists each port once with its error or with exactly the bytes asked for (C63_data)."
  },
  {
   "property": "C64",
   "status": "partial",
   "theorems": [
    "Xcvr.C64_declared_partial",
    "Xcvr.C64_detected_partial",
    "Xcvr.C64_declared_total",
    "Xcvr.C64_aborts",
    "Xcvr.C64_abort_counterexample",
    "Xcvr.C64_truncation_counterexample",
    "Xcvr.C64_ignored",
    "Xcvr.C64_binary",
    "Xcvr.C64_binary_partial",
    "Xcvr.C64_false"
   ],
   "note": "False of the code: when the kind is to be detected, text of one byte or with a character across byte 2 aborts; text beyond 512 bytes and binary input beyond 128 bytes are silently cut (C64_false). Proved: exactly which inputs abort, and that text up to 512 bytes is accepted exactly if it is at most 128 numbers that fit an octet, with that meaning."
  },
  {
   "property": "C65",
   "status": "proved",
   "theorems": [
    "Xcvr.C65_runs",
    "Xcvr.C65_served",
    "Xcvr.C65_conforms",
    "Xcvr.C65_method",
    "Xcvr.C65_op",
    "Xcvr.C65_only"
   ],
   "note": "Proved for a model of the whole system: any number of tasks calling through one controller, the I/O loop, a network that loses, copies, delays and reorders, and an SP that answers with the id of the request it received. Assumes no one else forges SP responses, and fewer than 2^64 requests; ids restart at 0 with the process, so one process per SP."
  },
  {
   "property": "C66",
   "status": "partial",
   "theorems": [
    "Xcvr.C66_counterexample",
    "Xcvr.C66_bounded_partial",
    "Xcvr.C66_single_try_partial",
    "Xcvr.C66_false"
   ],
   "note": "False of the code: a retransmission sent before the response came may reach the SP after the call returned, e.g. a second AssertReset after reset finished (C66_false), even without copies made by the network. Proved: the SP receives a request at most max(1, n_retries) times without network copies, and never after the return if only one try is configured."
  },
  {
   "property": "C67",
   "status": "proved",
   "theorems": [
    "Xcvr.C67_fixed",
    "Xcvr.C67_present",
    "Xcvr.C67_power",
    "Xcvr.C67_off",
    "Xcvr.C67_kind"
   ],
   "note": "For an SP that answers properly. By power state the selection fails as a whole if a powered module is of an unsupported kind (stated in the theorem); `off` selects empty ports as well."
  },
  {
   "property": "C68",
   "status": "proved",
   "theorems": [
    "Xcvr.C68_extended",
    "Xcvr.C68_fallback"
   ],
   "note": "Fallback happens on every error of the extended status request; a malformed extended status that makes the controller abort (C40) is not recovered from."
  },
  {
   "property": "C69",
   "status": "partial",
   "theorems": [
    "Xcvr.C69_column_partial",
    "Xcvr.C69_one_flag_partial",
    "Xcvr.C69_counterexample",
    "Xcvr.C69_empty_counterexample",
    "Xcvr.C69_false",
    "Xcvr.C69_kinds"
   ],
   "note": "False of the code: with several flags in --without a module counts as being without them unless all are set (C69_counterexample), and empty flags abort after the exchange (C69_empty_counterexample). Proved: the exact truth value printed, and the property for at most one flag in --without."
  },
  {
   "property": "C70",
   "status": "proved",
   "theorems": [
    "Xcvr.C70_lines"
   ],
   "note": "For results with one error per failed module (C20, C42 say where this comes from)."
  },
  {
   "property": "C71",
   "status": "proved",
   "theorems": [
    "Xcvr.C71_accepted",
    "Xcvr.C71_sent",
    "Xcvr.C71_outcome",
    "Xcvr.C71_page"
   ],
   "note": "Upper pages are as given by number and bank."
  },
  {
   "property": "C72",
   "status": "proved",
   "theorems": [
    "Xcvr.C72_power",
    "Xcvr.C72_status",
    "Xcvr.C72_commands",
    "Xcvr.C72_info",
    "Xcvr.C72_memory",
    "Xcvr.C72_read_command"
   ],
   "note": "For every method that takes a module set, and the read and status commands."
  },
  {
   "property": "C73",
   "status": "partial",
   "theorems": [
    "Xcvr.C73_monitors",
    "Xcvr.C73_unique",
    "Xcvr.C73_custom_partial",
    "Xcvr.C73_power",
    "Xcvr.C73_identify",
    "Xcvr.C73_data",
    "Xcvr.C73_led",
    "Xcvr.C73_status",
    "Xcvr.C73_vendor_partial",
    "Xcvr.C73_counterexample",
    "Xcvr.C73_line_counterexample",
    "Xcvr.C73_false",
    "Xcvr.C73_model"
   ],
   "note": "False for vendor information: texts stored in a module are printed without escaping, so a colon or line break in them changes the fields (C73_counterexample, C73_line_counterexample, C73_false). Proved for every other table with the default separator, for vendor information if the stored texts contain neither, and for any separator of one character that does not occur in the cells."
  },
  {
   "property": "C74",
   "status": "proved",
   "theorems": [
    "Xcvr.C74_port",
    "Xcvr.C74_hex",
    "Xcvr.C74_binary",
    "Xcvr.C74_data",
    "Xcvr.C74_data_injective",
    "Xcvr.C74_status",
    "Xcvr.C74_all",
    "Xcvr.C74_words"
   ],
   "note": "bitflags' text format is modelled from its documentation."
  },
  {
   "property": "C75",
   "status": "proved",
   "theorems": [
    "Xcvr.C75_model",
    "Xcvr.C75_lower",
    "Xcvr.C75_injective"
   ],
   "note": "C75_lower shows that a model with a lower page, which the decoder never makes, would abort."
  },
  {
   "property": "C76",
   "status": "proved",
   "theorems": [
    "Xcvr.C76_name",
    "Xcvr.C76_empty"
   ],
   "note": "C76_empty shows that an empty list, which the decoder never makes, would abort."
  },
  {
   "property": "C77",
   "status": "partial",
   "theorems": [
    "Xcvr.C77_column_partial",
    "Xcvr.C77_counterexample",
    "Xcvr.C77_false"
   ],
   "note": "False: the field is filled from peak-to-peak measurements too, with nothing to tell them apart (C77_counterexample, C77_false). Proved for modules without the monitor or that measure averages."
  },
  {
   "property": "C78",
   "status": "proved",
   "theorems": [
    "Xcvr.C78_text",
    "Xcvr.C78_range"
   ],
   "note": ""
  },
  {
   "property": "C79",
   "status": "partial",
   "theorems": [
    "Xcvr.C79_link_local",
    "Xcvr.C79_given_partial",
    "Xcvr.C79_sound_partial",
    "Xcvr.C79_no_list",
    "Xcvr.C79_counterexample",
    "Xcvr.C79_false"
   ],
   "note": "False: only the first IPv6 address of the interface is compared, so any other assigned address is rejected (C79_counterexample, C79_false). Proved: exactly the first one is accepted, what is accepted is assigned, and the choice of the link-local address."
  },
  {
   "property": "C80",
   "status": "proved",
   "theorems": [
    "Xcvr.C80_settings"
   ],
   "note": ""
  },
  {
   "property": "C81",
   "status": "partial",
   "theorems": [
    "Xcvr.C81_start_partial",
    "Xcvr.C81_tool",
    "Xcvr.C81_counterexample",
    "Xcvr.C81_false"
   ],
   "note": "False: the builder accepts a retry interval of zero, with which tokio's interval panics (C81_counterexample, C81_false). Proved for all other configurations and for every configuration of the command line tool, whose parser bounds the interval."
  },
  {
   "property": "C82",
   "status": "partial",
   "theorems": [
    "Xcvr.C82_counterexample",
    "Xcvr.C82_false",
    "Xcvr.C82_exact_partial",
    "Xcvr.C82_few_partial",
    "Xcvr.C82_silent_partial"
   ],
   "note": "False of the code: capacity + width + 2 requests of the SP can leave the loop waiting for room in the handler's channel and the handler for room in the channel back, for ever; the command line tool stalls after four (C82_counterexample, C82_false). Proved: the loop recovers unless both channels and the handler are full, so in particular with fewer requests (C82_few_partial) or a handler that never replies (C82_silent_partial)."
  },
  {
   "property": "C83",
   "status": "proved",
   "theorems": [
    "Xcvr.C83_order",
    "Xcvr.C83_replies",
    "Xcvr.C83_refines",
    "Xcvr.C83_calls"
   ],
   "note": "While the handler exists. C83_refines carries the properties of the loop over to the loop with handler."
  },
  {
   "property": "C84",
   "status": "proved",
   "theorems": [
    "Xcvr.C84_addresses",
    "Xcvr.C84_results",
    "Xcvr.C84_unchecked"
   ],
   "note": "C84_unchecked shows that the hypothesis on the SP is needed: the modules of a response are not compared with those of the request."
  },
  {
   "property": "C85",
   "status": "proved",
   "theorems": [
    "Xcvr.C85_queries"
   ],
   "note": ""
  },
  {
   "property": "C86",
   "status": "proved",
   "theorems": [
    "Xcvr.C86_writes"
   ],
   "note": ""
  },
  {
   "property": "C87",
   "status": "partial",
   "theorems": [
    "Xcvr.C87_counterexample",
    "Xcvr.C87_false",
    "Xcvr.C87_zeros_partial"
   ],
   "note": "False of the code, as comments in it admit: the whole byte is written, with zeros in all other bits, which withdraws the higher power classes of SFF-8636 modules and the squelch setting of CMIS modules (C87_counterexample, C87_false). Proved: exactly zeros are written there, so nothing is lost iff those bits were zero."
  },
  {
   "property": "C88",
   "status": "proved",
   "theorems": [
    "Xcvr.C88_changes",
    "Xcvr.C88_inspecting",
    "Xcvr.C88_refused"
   ],
   "note": "About main after the command line is parsed and the controller started."
  },
  {
   "property": "C89",
   "status": "proved",
   "theorems": [
    "Xcvr.C89_selected",
    "Xcvr.C89_listed"
   ],
   "note": ""
  },
  {
   "property": "C90",
   "status": "proved",
   "theorems": [
    "Xcvr.C90_failures",
    "Xcvr.C90_exit_status"
   ],
   "note": "Setting low or high power is the subject of C45. C90_exit_status shows that scripts cannot rely on the exit status."
  },
  {
   "property": "C91",
   "status": "proved",
   "theorems": [
    "Xcvr.C91_named",
    "Xcvr.C91_fallback"
   ],
   "note": "A line is what one println! prints; text from a module may itself contain line breaks. The layout of datapath grids is left open and assumed not to look like the line of a port. A read of no bytes prints nothing."
  },
  {
   "property": "C92",
   "status": "proved",
   "theorems": [
    "Xcvr.C92_vendor"
   ],
   "note": "Width is counted in characters (Unicode scalar values), as Rust's padding counts it."
  },
  {
   "property": "C93",
   "status": "partial",
   "theorems": [
    "Xcvr.C93_causes_partial",
    "Xcvr.C93_write_aborts",
    "Xcvr.C93_status_aborts",
    "Xcvr.C93_counterexample",
    "Xcvr.C93_false"
   ],
   "note": "False as stated (C93_false): C93_counterexample has five aborting runs. C93_causes_partial proves that an abort has one of these causes, and no other: flags of `status` that name nothing (or that clap forbids together); a module that failed in a read of several chunks; undeclared input that is a single byte or is cut inside a character at byte 2; reserved codes in module memory (memory-model, monitors, datapath); a MAC range the constructor would refuse. C93_write_aborts and C93_status_aborts show that these two causes always abort."
  },
  {
   "property": "C94",
   "status": "proved",
   "theorems": [
    "Xcvr.C94_datapath"
   ],
   "note": "How the `tabled` crate draws a table of cells is left open (`Fmt.grid`); the cells handed to it are what is proved. The reserved lane states that make the decoder fail are C61."
  },
  {
   "property": "C95",
   "status": "proved",
   "theorems": [
    "Xcvr.C95_vendor",
    "Xcvr.C95_vendor_parseable",
    "Xcvr.C95_model",
    "Xcvr.C95_identify"
   ],
   "note": "In the parseable form at least one field is named, as the parser demands."
  },
  {
   "property": "C96",
   "status": "partial",
   "theorems": [
    "Xcvr.C96_monitors_partial",
    "Xcvr.C96_heating_partial",
    "Xcvr.C96_parseable_partial",
    "Xcvr.C96_counterexample",
    "Xcvr.C96_custom_false"
   ],
   "note": "False as stated: a negative cooler current is shown as a positive one (C96_counterexample), and the custom monitor is never shown (C96_custom_false). C96_monitors_partial and C96_parseable_partial state exactly what is shown, in both forms; C96_heating_partial is the property but for the custom monitor when no cooler current is negative. A cooler current is a fraction of the maximum; the tool labels it `(mA)`. Numbers are written as in C101 and C102."
  },
  {
   "property": "C97",
   "status": "proved",
   "theorems": [
    "Xcvr.C97_power",
    "Xcvr.C97_leds",
    "Xcvr.C97_status",
    "Xcvr.C97_status_all",
    "Xcvr.C97_status_filter",
    "Xcvr.C97_read_lower",
    "Xcvr.C97_read_upper",
    "Xcvr.C97_macs"
   ],
   "note": "In the parseable form at least one field is named, as the parser demands. A read of no bytes shows nothing (C63). What the question about flags means with several flags to be absent is C69. A range that `MacAddrs::new` would not make is C78. The LED words are capitalized in the default form only."
  },
  {
   "property": "C98",
   "status": "partial",
   "theorems": [
    "Xcvr.C98_omit_partial",
    "Xcvr.C98_header",
    "Xcvr.C98_ignored",
    "Xcvr.C98_counterexample"
   ],
   "note": "False for `status` with --all, --with or --without: the flag is accepted and ignored (C98_ignored, C98_counterexample). C98_omit_partial and C98_header prove it for all other tables that have a header. Monitors in the default form have none."
  },
  {
   "property": "C99",
   "status": "proved",
   "theorems": [
    "Xcvr.C99_silent",
    "Xcvr.C99_status"
   ],
   "note": "Standard output is lines; if printing aborts, lines printed before are not modelled."
  },
  {
   "property": "C100",
   "status": "proved",
   "theorems": [
    "Xcvr.C100_rounding",
    "Xcvr.C100_temperature",
    "Xcvr.C100_volts",
    "Xcvr.C100_milliwatts",
    "Xcvr.C100_milliamps",
    "Xcvr.C100_cooler"
   ],
   "note": "single is proved to be rounding to the nearest, ties to even (C100_rounding), so the bounds are about IEEE arithmetic as specified in Spec/F32."
  },
  {
   "property": "C101",
   "status": "partial",
   "theorems": [
    "Xcvr.C101_form",
    "Xcvr.C101_power",
    "Xcvr.C101_bias_partial",
    "Xcvr.C101_scaled_partial",
    "Xcvr.C101_counterexample"
   ],
   "note": "False with the multiplier 4: 512.216 mA is shown as 512.2159 (C101_counterexample). Proved for power (C101_power), for bias currents with multipliers 1 and 2, and with the multiplier 4 up to 400 mA; above, the number shown is within one unit of the last decimal (C101_scaled_partial)."
  },
  {
   "property": "C102",
   "status": "proved",
   "theorems": [
    "Xcvr.C102_temperature",
    "Xcvr.C102_volts",
    "Xcvr.C102_cooler",
    "Xcvr.C102_inexact"
   ],
   "note": "The text is not always the value that the module stores: 0.0003 V is shown as 0.00029999999 (C102_inexact). Rust's float formatting is modelled (Model/F32) and is part of the trusted base."
  },
  {
   "property": "C103",
   "status": "proved",
   "theorems": [
    "Xcvr.C103_refused",
    "Xcvr.C103_status"
   ],
   "note": "Undefined pages without banks of CMIS modules are not refused, see C10. That input can abort the tool is C64."
  },
  {
   "property": "C104",
   "status": "proved",
   "theorems": [
    "Xcvr.C104_report_at",
    "Xcvr.C104_report",
    "Xcvr.C104_set_at",
    "Xcvr.C104_pins",
    "Xcvr.C104_set",
    "Xcvr.C104_set_then_read",
    "Xcvr.C104_both_counterexample",
    "Xcvr.C104_both"
   ],
   "note": "The board is specified in Spec/Board.lean: acknowledged requests take effect, failed ones may have any effect. The condition that the module is not also a failure is needed (C104_both): with low power asked for and the low power pin failing, the module is still powered and taken out of reset, runs at high power, and is in both lists."
  },
  {
   "property": "C105",
   "status": "proved",
   "theorems": [
    "Xcvr.C105_command_at",
    "Xcvr.C105_command",
    "Xcvr.C105_status",
    "Xcvr.C105_extended",
    "Xcvr.C105_leds",
    "Xcvr.C105_write_at",
    "Xcvr.C105_write",
    "Xcvr.C105_read",
    "Xcvr.C105_memory",
    "Xcvr.C105_reset_at",
    "Xcvr.C105_reset"
   ],
   "note": "Registers are taken to hold what is written to them, and an enabled supply to come up."
  },
  {
   "property": "C106",
   "status": "proved",
   "theorems": [
    "Xcvr.C106_inspect",
    "Xcvr.C106_others"
   ],
   "note": ""
  },
  {
   "property": "C107",
   "status": "proved",
   "theorems": [
    "Xcvr.C107_bound",
    "Xcvr.C107_reached",
    "Xcvr.C107_reached_vendor",
    "Xcvr.Cli.C107_command",
    "Xcvr.Cli.C107_command_reached"
   ],
   "note": "The bounds of the methods and that of the commands are reached on concrete boards (C107_reached, C107_reached_vendor, C107_command_reached), so that no smaller ones hold. With C24, which bounds the time of one request, an operation ends."
  },
  {
   "property": "C108",
   "status": "proved",
   "theorems": [
    "Xcvr.C108_bounded",
    "Xcvr.C108_progress",
    "Xcvr.C108_datagrams",
    "Xcvr.C108_methods",
    "Xcvr.C108_command",
    "Xcvr.C108_reached"
   ],
   "note": "Fairness is not part of the model: the theorems say that the steps are bounded in number and that one is always possible. The default without --n-retries is usize::MAX tries, for which the bound holds but is of no practical use. The bound is reached with a silent SP (C108_reached)."
  },
  {
   "property": "C109",
   "status": "proved",
   "theorems": [
    "Xcvr.C109_read",
    "Xcvr.C109_distinct",
    "Xcvr.Cli.C109_tool"
   ],
   "note": "C109_read, Cli.C109_tool; C109_distinct says that what is told determines the error, apart from management errors (whose message hides its cause) and unsupported identifiers (told by their name)."
  },
  {
   "property": "C110",
   "status": "proved",
   "theorems": [
    "Xcvr.C110_said",
    "Xcvr.Cli.C110_said"
   ],
   "note": "C110_said for all methods, Cli.C110_said for the tool. No assumption on the SP."
  },
  {
   "property": "C111",
   "status": "partial",
   "theorems": [
    "Xcvr.C111_own_partial",
    "Xcvr.Cli.C111_own_partial",
    "Xcvr.Cli.C111_line_partial",
    "Xcvr.Cli.C111_counterexample",
    "Xcvr.Cli.C111_false"
   ],
   "note": "False of the code for commands that decode (a consequence of C42): Cli.C111_counterexample is a run of vendor-info that prints '3 Hardware error accessing module 4' and '4 Hardware error accessing module 3'; Cli.C111_false. Holds for all methods and commands that decode nothing but identifiers, whatever the SP answers: C111_own_partial, Cli.C111_own_partial, Cli.C111_line_partial."
  },
  {
   "property": "C112",
   "status": "proved",
   "theorems": [
    "Xcvr.C112_grounds",
    "Xcvr.C112_tool"
   ],
   "note": "C112_grounds for all methods, C112_tool for the tool. No assumption on the SP."
  },
  {
   "property": "C113",
   "status": "proved",
   "theorems": [
    "Xcvr.C113_stops",
    "Xcvr.C113_tool"
   ],
   "note": "C113_stops for all methods, C113_tool for the tool. No assumption on the SP."
  },
  {
   "property": "C114",
   "status": "proved",
   "theorems": [
    "Xcvr.C114_failed",
    "Xcvr.C114_socket",
    "Xcvr.C114_done",
    "Xcvr.C114_abort",
    "Xcvr.C114_distinct",
    "Xcvr.C114_modules",
    "Xcvr.C114_same"
   ],
   "note": "C114_failed, C114_done, C114_abort, C114_distinct, C114_modules, C114_same. An identifier is told by its name; the names of the 256 codes differ. Log lines, which share standard error, and backtraces are not modelled."
  },
  {
   "property": "C115",
   "status": "partial",
   "theorems": [
    "Xcvr.C115_refused_partial",
    "Xcvr.C115_foreign_partial",
    "Xcvr.C115_counterexample"
   ],
   "note": "False for reads past the end of the memory: the message is the fixed text 'End of read (<the value>) is out of the range [0, 255]', the same for all such reads (C115_counterexample). Proved for the rest: C115_refused_partial gives reason and values; a read past the end of a page is described by the offset and length of a piece of it."
  },
  {
   "property": "C116",
   "status": "partial",
   "theorems": [
    "Xcvr.C116_vendor",
    "Xcvr.C116_monitors",
    "Xcvr.C116_states",
    "Xcvr.C116_datapath_partial",
    "Xcvr.C116_counterexample",
    "Xcvr.C116_answers_partial"
   ],
   "note": "False for datapaths of SFF-8636 modules whose Ethernet code has no name, as for every module that gives none (C116_counterexample): the document is written but refused when read. C116_datapath_partial says exactly when; everything else is proved (C116_vendor, C116_monitors, C116_states, C116_answers_partial)."
  },
  {
   "property": "C117",
   "status": "proved",
   "theorems": [
    "Xcvr.C117_read",
    "Xcvr.C117_written",
    "Xcvr.C117_written_decoded",
    "Xcvr.C117_absent",
    "Xcvr.C117_number"
   ],
   "note": "C117_read, C117_written, C117_written_decoded, C117_absent, C117_number. Written datapaths: with the exception of C116."
  },
  {
   "property": "C118",
   "status": "partial",
   "theorems": [
    "Xcvr.C118_status",
    "Xcvr.C118_counterexample",
    "Xcvr.C118_false",
    "Xcvr.C118_extended_partial"
   ],
   "note": "False for the extended status, whose visit_u64 drops unknown flags silently (C118_counterexample, C118_false) although the same value is refused on the wire. C118_extended_partial: exactly the nine known flags are kept and numbers over 32 bits are refused. Proved for the status (C118_status)."
  },
  {
   "property": "C119",
   "status": "proved",
   "theorems": [
    "Xcvr.C119_datapath",
    "Xcvr.C119_monitors",
    "Xcvr.C119_others"
   ],
   "note": "C119_datapath, C119_monitors, C119_others."
  },
  {
   "property": "C120",
   "status": "proved",
   "theorems": [
    "Xcvr.C120_read",
    "Xcvr.C120_written",
    "Xcvr.C120_short",
    "Xcvr.C120_same",
    "Xcvr.C120_distinct"
   ],
   "note": "The parser and writer of the crate bitflags are modelled after their source (2.x)."
  },
  {
   "property": "C121",
   "status": "partial",
   "theorems": [
    "Xcvr.C121_counterexample",
    "Xcvr.C121_named_partial",
    "Xcvr.C121_unknown_partial"
   ],
   "note": "False as documented: a hexadecimal number with bits that do not exist is taken (C121_counterexample). C121_named_partial: texts without a number give valid bits only. C121_unknown_partial: with such bits the column is 0 for every module (--with) or 1 for every module (--without alone)."
  },
  {
   "property": "C122",
   "status": "proved",
   "theorems": [
    "Xcvr.C122_header",
    "Xcvr.C122_message",
    "Xcvr.C122_step",
    "Xcvr.C122_history",
    "Xcvr.C122_codes"
   ],
   "note": ""
  },
  {
   "property": "C123",
   "status": "partial",
   "theorems": [
    "Xcvr.C123_counterexample",
    "Xcvr.C123_false",
    "Xcvr.C123_exact_partial",
    "Xcvr.C123_told_partial"
   ],
   "note": "False of the code for versions above the current one: reported as Serialization (C123_counterexample, C123_false). C123_exact_partial gives what is reported for every version, C123_told_partial where reports of a mismatch come from."
  },
  {
   "property": "C124",
   "status": "proved",
   "theorems": [
    "Xcvr.C124_exact",
    "Xcvr.C124_told"
   ],
   "note": "C124_exact assumes that something follows the header; otherwise the loop panics (C27)."
  },
  {
   "property": "C125",
   "status": "proved",
   "theorems": [
    "Xcvr.C125_written",
    "Xcvr.C125_datapath",
    "Xcvr.C125_answers",
    "Xcvr.C125_unambiguous"
   ],
   "note": "Schemas as schemars 0.8 derives them; conformance as defined by JSON Schema (draft 7) for the keywords used."
  },
  {
   "property": "C126",
   "status": "partial",
   "theorems": [
    "Xcvr.C126_counterexample",
    "Xcvr.C126_false",
    "Xcvr.C126_reads_partial",
    "Xcvr.C126_written_partial"
   ],
   "note": "False of the code in both directions (C126_counterexample, C126_false): the schema of a byte does not limit it to 255 and admits 7.0, the schemas of codes admit any text; and structs are read from arrays, names from objects. C126_reads_partial: documents that conform are read, if bytes are integers up to 255, codes are known texts and keys are decimal bytes; C126_written_partial: what is written is such a document."
  },
  {
   "property": "C127",
   "status": "proved",
   "theorems": [
    "Xcvr.C127_spaced",
    "Xcvr.C127_patience",
    "Xcvr.C127_faults"
   ],
   "note": "Time is a natural number that passes between the steps of the loop; tokio::time::Interval as documented (first tick at once, default Burst behaviour, reset)."
  },
  {
   "property": "C128",
   "status": "proved",
   "theorems": [
    "Xcvr.C128_latency"
   ],
   "note": "The promptness of the scheduler is a hypothesis (Prompt); the bound is reached in the example."
  },
  {
   "property": "C129",
   "status": "proved",
   "theorems": [
    "Xcvr.C129_deadline",
    "Xcvr.C129_operation",
    "Xcvr.C129_methods",
    "Xcvr.C129_command"
   ],
   "note": "Promptness of the scheduler is a hypothesis (SysPrompt), and so is that a handler that stalls the loop (C82) does so for no longer than the lateness. The channel of capacity one is modelled, with tokio's fair order of waiting senders. The bound is reached in the example."
  },
  {
   "property": "C130",
   "status": "proved",
   "theorems": [
    "Xcvr.C130_goes_on"
   ],
   "note": "Shows that the hypothesis of C129 can be met from every state."
  },
  {
   "property": "C131",
   "status": "proved",
   "theorems": [
    "Xcvr.C131_looking",
    "Xcvr.C131_method",
    "Xcvr.C131_power",
    "Xcvr.C131_tool"
   ],
   "note": "Connects the whole-system model (C65) with the specification of the board (C104-C106). The SP carries out what it receives, in that order, as often as it receives it. C131_power is C104 end to end; C131_tool covers every inspecting command."
  },
  {
   "property": "C132",
   "status": "partial",
   "theorems": [
    "Xcvr.C132_order_partial",
    "Xcvr.C132_fifo_partial",
    "Xcvr.C132_once_partial",
    "Xcvr.C132_single_try_partial",
    "Xcvr.C132_power_partial",
    "Xcvr.C132_reset_partial",
    "Xcvr.C132_command_partial",
    "Xcvr.C132_write_partial",
    "Xcvr.C132_false"
   ],
   "note": "False: a copy of a request that comes late is carried out again; after a reset that succeeded the module can be in reset (C132_false; the network makes no copies there, the loop sent the request twice). Proved: if no copy of a changing request comes after a later datagram, and copies are acknowledged alike, then what the method saw is exactly what happened to the board, with queries of others in between (C132_order_partial; so C104-C106 hold end to end: C132_power_partial, C132_reset_partial). That order follows from a network that loses and delays but keeps the order, with any number of retries (C132_fifo_partial, because the loop sends no copy of a request after a later one), and both conditions follow if nothing that changes modules is received twice (C132_once_partial), e.g. with a single try and no copies (C132_single_try_partial). For methods of one command, and for writes, copies do no harm in any order as long as each is acknowledged (C132_command_partial, C132_write_partial)."
  },
  {
   "property": "C133",
   "status": "proved",
   "theorems": [
    "Xcvr.C133_others",
    "Xcvr.C133_tool",
    "Xcvr.C133_listed"
   ],
   "note": "The SP's responses are taken to be proper, since later requests of a method name modules from earlier responses (C84). C133_tool: the same for the tool with any selection and command, where the ports touched are among those the tool selected from its answers."
  },
  {
   "property": "C134",
   "status": "partial",
   "theorems": [
    "Xcvr.C134_power_partial",
    "Xcvr.C134_model_sff_partial",
    "Xcvr.C134_model_cmis_partial",
    "Xcvr.C134_vendor_sff_partial",
    "Xcvr.C134_vendor_cmis_partial",
    "Xcvr.C134_monitors_sff_partial",
    "Xcvr.C134_monitors_cmis_partial",
    "Xcvr.C134_datapath_sff_partial",
    "Xcvr.C134_datapath_cmis_partial",
    "Xcvr.C134_datapath_error_partial",
    "Xcvr.C134_more_partial",
    "Xcvr.C134_false"
   ],
   "note": "False: vendor information, monitors and the datapath panic on short reads (C134_false). Proved, for each decoder and kind of module, exactly when parse panics and when it returns a value: the power control word never panics, the memory model only for the reserved number of banks, vendor information exactly if there are too few bytes, monitors exactly if bytes of a supported monitor are missing or the bias scale is the reserved one, the SFF-8636 datapath exactly unless the five reads have just the right lengths. The CMIS datapath: a value exactly if the reads common to all lanes are as they should be and everything is there for each assigned lane (C134_datapath_cmis_partial); an error exactly if the first assigned lane that is not so has only a state without a name, else a panic (C134_datapath_error_partial). C134_more_partial: later strings are ignored, by all decoders."
  },
  {
   "property": "C135",
   "status": "proved",
   "theorems": [
    "Xcvr.C135_sent",
    "Xcvr.C135_received"
   ],
   "note": "Datagrams longer than the receive buffer are shown as far as they are looked at."
  },
  {
   "property": "C136",
   "status": "partial",
   "theorems": [
    "Xcvr.C136_message_partial",
    "Xcvr.C136_peer_partial",
    "Xcvr.C136_false"
   ],
   "note": "False: the probes of a protocol error always name the SP, also if the error was sent to another host (C136_false). Proved: they are right for requests and responses, and for errors sent to the SP (C136_peer_partial); every message__sent goes with a packet that was sent, and which holds the header and the message, except that responses of the request handler are sent without their header (C136_message_partial; see C31)."
  },
  {
   "property": "C137",
   "status": "partial",
   "theorems": [
    "Xcvr.C137_trace_partial",
    "Xcvr.C137_bad_partial",
    "Xcvr.C137_dropped_partial",
    "Xcvr.C137_false",
    "Xcvr.C137_reason_partial",
    "Xcvr.C137_reason_false"
   ],
   "note": "False: a message of any kind under the header of an SP request is not reported, and reaches the request handler (C137_false); the reason for an unreadable header has the text {e:?} in place of the error (C137_reason_false). Proved: a trace of every datagram; bad__message exactly for what is not WellFormed, where any readable message counts as a request of the SP; nothing that is reported as bad is passed on to a caller as a response or to the handler; and different causes have different reasons, whatever the deserialization errors are called."
  },
  {
   "property": "C138",
   "status": "partial",
   "theorems": [
    "Xcvr.C138_answered_partial",
    "Xcvr.C138_matched_partial",
    "Xcvr.C138_timeout_partial",
    "Xcvr.C138_resent_partial",
    "Xcvr.C138_reason_partial",
    "Xcvr.C138_dropped_partial",
    "Xcvr.C138_false"
   ],
   "note": "False: message__matched also fires for a response that is too short, whose caller gets an error (C138_false). Proved: the rest, and that these are the only two outcomes of a match while the caller waits. If the caller is gone the loop panics after the probes (see C28)."
  },
  {
   "property": "C139",
   "status": "proved",
   "theorems": [
    "Xcvr.C139_isolated",
    "Xcvr.C139_order",
    "Xcvr.C139_fifo",
    "Xcvr.C139_power",
    "Xcvr.C139_reset",
    "Xcvr.C139_command",
    "Xcvr.C139_write",
    "Xcvr.C139_looking",
    "Xcvr.C139_report",
    "Xcvr.C139_touched",
    "Xcvr.C139_op",
    "Xcvr.C139_inspects",
    "Xcvr.C139_part",
    "Xcvr.C139_tool",
    "Xcvr.C139_inspecting"
   ],
   "note": "C139_isolated drops all that other hosts sent from the history of a port. C139_order, _power, _reset, _command and _write are the results of C132 for that port: they need, as C132 does, that no old copy of a datagram that is to change the port comes after a later datagram of the same host, for which a network that keeps the order of one host's datagrams is enough (C139_fifo). C139_looking and C139_report need no such thing. C139_op, _inspects, _part, _tool and _inspecting say who spares a module."
  },
  {
   "property": "C140",
   "status": "proved",
   "theorems": [
    "Xcvr.C140_linear",
    "Xcvr.C140_board"
   ],
   "note": "C140_linear is for any tasks, also with some unfinished: a port is taken where the order takes it if each task spares the port or came to its end with answers to all calls. C140_board is for tasks that all returned. Both need, as C132 does, that no copy of a datagram that is to change something is received after a later datagram, and that copies are acknowledged alike; C132_fifo_partial says that a network that keeps the order is enough for the first. Without the first, C132_false is a counterexample. The order, and that it can be cut at each point of the history, need nothing of the network."
  },
  {
   "property": "C141",
   "status": "proved",
   "theorems": [
    "Xcvr.C141_race"
   ],
   "note": "Uses C140. The state is one that a task set, not necessarily the one set by the task that returned last. Tasks that failed for the module are excluded: one that failed half way leaves the module where it stopped."
  },
  {
   "property": "C142",
   "status": "partial",
   "theorems": [
    "Xcvr.C142_board_partial",
    "Xcvr.C142_net_partial",
    "Xcvr.C142_counterexample",
    "Xcvr.C142_false"
   ],
   "note": "False for set-power low and high (C142_false): with one module off and another powered, the second is dropped without a failure line and stays in high power. Proved for all other commands, and for set-power of one module, or of modules of one kind that all need power or all do not, on the board (C142_board_partial) and over the network (C142_net_partial)."
  },
  {
   "property": "C143",
   "status": "proved",
   "theorems": [
    "Xcvr.C143_power",
    "Xcvr.C143_leds",
    "Xcvr.C143_lower",
    "Xcvr.C143_upper",
    "Xcvr.C143_status",
    "Xcvr.C143_status_all",
    "Xcvr.C143_status_filter",
    "Xcvr.C143_power_set",
    "Xcvr.C143_leds_set",
    "Xcvr.C143_pins_set",
    "Xcvr.C143_pins_set_all",
    "Xcvr.C143_pins_set_filter",
    "Xcvr.C143_lower_set",
    "Xcvr.C143_upper_set"
   ],
   "note": "C143_power, C143_leds, C143_status, C143_status_all, C143_status_filter, C143_lower, C143_upper: what each command shows of the board. C143_power_set, C143_leds_set, C143_pins_set, C143_pins_set_all, C143_pins_set_filter, C143_lower_set, C143_upper_set: one run that sets, then one that shows. The default and the parseable form; status also with all flags and with a filter."
  },
  {
   "property": "C144",
   "status": "proved",
   "theorems": [
    "Xcvr.C144_atomic",
    "Xcvr.C144_last"
   ],
   "note": "C144_atomic: the order of operations and its agreement with time. C144_last: LED, reset pin, supply, low power pin, and each byte of memory. Uses C140; setting the power is C141."
  },
  {
   "property": "C145",
   "status": "proved",
   "theorems": [
    "Xcvr.C145_linearizable",
    "Xcvr.C145_fresh"
   ],
   "note": "C145_linearizable: the order. C145_fresh: what was set before a query began is seen by it. Resets are not among the operations here, since a query may see a module in reset between their two steps; see C144 for them. Uses C140."
  },
  {
   "property": "C146",
   "status": "proved",
   "theorems": [
    "Xcvr.C146_linear",
    "Xcvr.C146_atomic",
    "Xcvr.C146_linearizable",
    "Xcvr.C146_race"
   ],
   "note": "C146_linear: the order. C146_atomic: commands, writes and resets. C146_linearizable: with queries. C146_race: the power. The tasks that are to change the module must have come to their end with answers. The moment is given by how many datagrams the SP had received."
  },
  {
   "property": "C147",
   "status": "partial",
   "theorems": [
    "Xcvr.C147_once_partial",
    "Xcvr.C147_single_try_partial",
    "Xcvr.C147_false"
   ],
   "note": "False of the code: the SP has no memory of requests it served, and with several hosts, unlike with one (C132_fifo_partial), another's request can come between two sendings of the same request. C147_false: a host turns the LED on and the answer is lost; another sees it on and turns it off; the first sends again, and the LED is on. C147_once_partial: if nothing that is to change the module is received twice from a host, C146 applies. C147_single_try_partial: so it does with one try on each host and no copies."
  },
  {
   "property": "C148",
   "status": "proved",
   "theorems": [
    "Xcvr.C148_left_out",
    "Xcvr.C148_memory_model",
    "Xcvr.C148_flat"
   ],
   "note": "C148_left_out: the four queries that need all their reads. C148_memory_model: the panic for memory models. C148_flat: the exception. The data of each module is looked up only when the parser asks for it (`asks` of a decoder), as the iterator of the code does."
  },
  {
   "property": "C149",
   "status": "partial",
   "theorems": [
    "Xcvr.C149_distinct_partial",
    "Xcvr.C149_read_upper",
    "Xcvr.C149_false"
   ],
   "note": "False of the code (C149_false): in read-upper the letter p stands both for --page and, through ParsableArgs, for --parseable, so a debug build aborts on the command and in a release build one of the two cannot be given by letter. C149_distinct_partial: no letters are shared in any other command, and no long names in any. C149_read_upper: p is the only letter shared there. The command set is finite, so the proof by cases is complete."
  },
  {
   "property": "C150",
   "status": "partial",
   "theorems": [
    "Xcvr.C150_same",
    "Xcvr.C150_causes_partial",
    "Xcvr.C150_needed",
    "Xcvr.C150_false"
   ],
   "note": "False of the code (C150_false): an empty set of flags, `status --with ''`, is let through and ends in a branch marked unreachable. C150_same: otherwise main, written with all its branches (Model/Args.lean), is the same program as the one of Model/CliMain.lean, in which the two flags are one. C150_causes_partial: the combinations of arguments that C93 names as causes of an abort cannot occur, apart from empty flags. C150_needed: without the rules the branches are reached. What clap does with the declared rules is taken from its documentation."
  },
  {
   "property": "C151",
   "status": "partial",
   "theorems": [
    "Xcvr.C151_idle",
    "Xcvr.C151_refused_partial",
    "Xcvr.C151_false",
    "Xcvr.C151_exact"
   ],
   "note": "False of the code (C151_false): --omit-header is accepted, and has no effect, with status --all, with status --with or --without, and with monitors in the default form. C151_idle: fields and separators without the parseable form and banks for SFF-8636 have no effect on any run. C151_refused_partial: no accepted arguments contain them. C151_exact: arguments are accepted exactly when they contain none of these and say one thing (one kind of module, one form of status, a file with its kind)."
  },
  {
   "property": "C152",
   "status": "partial",
   "theorems": [
    "Xcvr.C152_fields",
    "Xcvr.C152_ports",
    "Xcvr.C152_values",
    "Xcvr.C152_capitals_partial",
    "Xcvr.C152_only",
    "Xcvr.C152_false"
   ],
   "note": "False of the code (C152_false): power prints Off, Low, High, set-power takes off, low, high; the same holds of LEDs in the default form. C152_capitals_partial: no printed state is taken, and the case is the only difference. Fields (C152_fields), ports in either form (C152_ports), status flags and LEDs in the parseable form (C152_values) are taken back. C152_only: nothing but these names is taken as a value."
  },
  {
   "property": "C153",
   "status": "partial",
   "theorems": [
    "Xcvr.C153_blanked_partial",
    "Xcvr.C153_hex_long",
    "Xcvr.C153_binary_long",
    "Xcvr.C153_printed",
    "Xcvr.C153_false"
   ],
   "note": "False of the code (C153_false). C153_printed: with the commas, two bytes or more are always refused. With blanks for the commas: up to 102 bytes in hexadecimal and 46 in binary are taken as they were (C153_blanked_partial); more in hexadecimal are refused (C153_hex_long); of more in binary, 46 bytes and half of the next are taken and the others dropped, without an error (C153_binary_long)."
  },
  {
   "property": "C154",
   "status": "proved",
   "theorems": [
    "Xcvr.C154_command",
    "Xcvr.C154_write",
    "Xcvr.C154_reset",
    "Xcvr.C154_power"
   ],
   "note": "C154_command (the nine single commands), C154_write, C154_reset, C154_power. Memory after power or reset was switched is the module's own affair and not claimed."
  },
  {
   "property": "C155",
   "status": "proved",
   "theorems": [
    "Xcvr.C155_restore",
    "Xcvr.C155_same"
   ],
   "note": "C155_restore; C155_same for histories in which only queries and operations on other modules come between. The board is that of Spec/Board.lean: memory that stores what is written; registers that behave otherwise are not claimed."
  },
  {
   "property": "C156",
   "status": "proved",
   "theorems": [
    "Xcvr.C156_spared",
    "Xcvr.C156_unlisted",
    "Xcvr.C156_net"
   ],
   "note": "C156_spared: all runs, for ports for which everything was acknowledged. C156_unlisted: all runs that end normally, for ports that the list of failures does not name, including those that setting low or high power passes over (C45). C156_net: the same at the end of an execution of the whole system."
  },
  {
   "property": "C157",
   "status": "proved",
   "theorems": [
    "Xcvr.C157_running",
    "Xcvr.C157_up",
    "Xcvr.C157_requests",
    "Xcvr.C157_tool",
    "Xcvr.C157_net"
   ],
   "note": "C157_running (state of the port), C157_requests (requests, for every outcome), C157_up (power and reset at the end), C157_tool (by the list of failures), C157_net (at the end of an execution of the whole system)."
  },
  {
   "property": "C158",
   "status": "proved",
   "theorems": [
    "Xcvr.C158_requests",
    "Xcvr.C158_ran",
    "Xcvr.C158_refused",
    "Xcvr.C158_tool",
    "Xcvr.C158_net"
   ],
   "note": "C158_requests (requests, for every outcome), C158_ran (successes), C158_refused (refusals), C158_tool (the set-power command), C158_net (executions of the whole system)."
  },
  {
   "property": "C159",
   "status": "partial",
   "theorems": [
    "Xcvr.C159_tool_partial",
    "Xcvr.C159_off",
    "Xcvr.C159_partial",
    "Xcvr.C159_counterexample"
   ],
   "note": "False of the code: when a module that is off is not in reset and the SP fails to put it in reset, set_power goes on to switch on its supply, since enable_power is called with all modules that need power rather than with those for which assert_reset succeeded (C159_counterexample). C159_partial: it holds for every module that the SP did not fail to put in reset, for all power states and outcomes. C159_off: it holds without this condition when powering off. C159_tool_partial: the same for the set-power command, whatever is selected."
  },
  {
   "property": "C160",
   "status": "partial",
   "theorems": [
    "Xcvr.C160_off",
    "Xcvr.C160_partial",
    "Xcvr.C160_tool_partial",
    "Xcvr.C160_counterexample"
   ],
   "note": "False of the code: when the SP fails to switch on the supply of a module, or to set its low power pin, set_power still takes it out of reset, since deassert_reset is called with all modules that need power (C160_counterexample). C160_partial: it holds for every module for which neither of these steps failed, for all outcomes. C160_off: powering off takes no module out of reset. C160_tool_partial: the same for the set-power command, whatever is selected."
  },
  {
   "property": "C161",
   "status": "partial",
   "theorems": [
    "Xcvr.C161_reset",
    "Xcvr.C161_power_partial",
    "Xcvr.C161_counterexample"
   ],
   "note": "C161_reset: holds of reset without condition. False of set_power: if a module is off and not in reset, and the SP fails to put it in reset, the release names it all the same (C161_counterexample). C161_power_partial: it holds for every module for which asserting reset, switching on the supply and setting the pin did not fail, for all power states and outcomes."
  }
 ]
}
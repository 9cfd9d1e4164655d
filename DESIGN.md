# Formal model of transceiver-control: design

Source: `/repo` (oxidecomputer/transceiver-control, pinned commit), read as text and not run.
Prover: Lean 4.33.0. Library: core Lean plus, where needed, single Mathlib modules.

## 1. Shape of the model

Every Rust function modelled is a total, computable Lean function whose doc comment cites the file and lines it models.

* Fixed-width integers are `BitVec n` (`U8`, `U16`, `U32`, `U64`), because masks, wrap-around and overflow matter here.
  Lengths (`usize`) are `Nat`.
* `&mut self` becomes "return the new value". Slices and `Vec` are `List`.
* `Result`/`Option` stay data. A panic (`unwrap`, `expect`, slice index, `assert`, `unreachable!`, debug-overflow) is the
  explicit third outcome `Exec.panic` of `Exec ε α = ok α | err ε | panic`.
* `hubpack` (external crate) is modelled from its published wire format: one tag byte per enum in declaration order,
  little-endian integers, struct fields in order, `Option` as a 0/1 tag byte; `deserialize` returns the value and the
  remaining bytes, and fails on a short buffer or unknown tag. This is part of the trusted base.
* The IO loop (`ioloop.rs`) is a state machine `step : State → Event → State × List Action`; `tokio::select!` becomes an
  arbitrary event order, the UDP socket becomes arbitrary packets, timers become tick events. `Model/Timed.lean` adds a clock
  and the timer (`tokio::time::Interval`, from its documentation): there, ticks happen only when they are due.
* Controller operations are programs over RPC (`Prog α`: return / fail / panic / perform an RPC and continue with its
  answer). They are run against an arbitrary service processor (SP): any state type, any initial state, any transition
  function. Interference by other callers is covered because the SP state may change arbitrarily between two RPCs.
  "Conforming SP" is a separate, explicit predicate on answers.
* C104 to C106 put a board behind the SP (`Spec/Board.lean`): pins, LED and memory of each port. Acknowledged requests
  take effect, failed ones may have any effect on the ports they name, answers to queries show the state. `board_evolves`
  shows that every program has such a run.
* Decoders are run against an arbitrary module memory map; specifications give the absolute address of each field.
* Measured values (`f32`) are rationals; each operation that rounds is followed by `single`, which rounds to the nearest
  single-precision number, ties to even (`Model/F32.lean`, proved correct in `C100_rounding`). `{x:0.4}` and `{x}` of Rust
  are modelled as the exact decimal rounded to four places and the shortest decimal that reads back. Strings are lists of characters; `from_utf8` and
  `trim_end` are modelled from the Unicode tables. A `BTreeMap` is a list sorted by key.

Directory layout: `Verif/Model/*` (the code), `Verif/Spec/*` (independent specifications), `Verif/Lemmas/*` (helpers),
`Verif/Props/*` (the property theorems and, beside each, `example`s that meet the hypotheses).

## 2. Properties, what is modelled, and how each is proved

| id | modelled | proof |
|----|----------|-------|
| C01 | `ModuleId` operations on `BitVec 64` | refinement to predicates on ports, bitwise extensionality |
| C02 | `from_index_iter`, `to_indices` | induction on the list / on the enumeration |
| C03 | `merge_module_data` two-iterator loop | induction on both lists of (port, datum); lookup refinement |
| C04 | `remove/keep/filter_module_data` | induction on the zipped list |
| C05 | `MacAddrs::new`, `nth` | arithmetic (`omega`) on byte decomposition |
| C06 | same | false at the OUI boundary: witness, plus exact characterisation |
| C07 | `MacAddrIter::next` | invariant on the iterator state, induction |
| C08 | wire decoder + `nth` | false: witness of an overflowing range; exact panic condition |
| C09 | `MemoryRead/Write::new`, `verify_*` | decision logic, `omega` |
| C10 | page constructors | decision logic; false for `new_unbanked`: witness + characterisation |
| C11 | `build_many` | induction on the number of chunks |
| C12 | `build_many` for SFF writes | false: every length in 5..=64-multiples fails; witness + exact condition |
| C13, C14, C15 | all wire types, encoder and decoder | compositional round-trip / canonicity / size lemmas per type |
| C16, C17 | `DeserializedErrors` | induction on the buffer; C17 false: witness + partial |
| C18, C19, C20 | `ModuleResult`, `FailedModules` | refinement to finite maps port → datum, using C03/C04 |
| C21-C28 | IO loop state machine | invariants by induction over event histories; C27, C28 false: witness + partial |
| C29-C31 | packet building | from C13/C15; C30, C31 false: witness + partial |
| C32 | id counter | modular arithmetic over the history |
| C33-C42 | controller operations as `Prog` | symbolic execution against an arbitrary / conforming SP; C37, C40, C42 false in part |
| C43-C48 | power operations as `Prog` | same; C45, C47 false: concrete SP witness + partial |
| C49 | `PowerControl` | all bytes |
| C50, C51 | tables generated by `bitfield_enum!` | whole-table proofs lifted to all values; C51 false for Ethernet codes |
| C52 | `Oui` parse/print | induction on hex digits |
| C53-C61 | decoders over memory maps | unfolding against absolute-address specs; C53, C57, C61 false in part |
| C62-C64 | CLI parsers | induction on the item list; C63, C64 false in part |
| C65, C66 | IO loop + network + SP + callers as one transition system | invariant over all histories; C66 false: witness + partial |
| C67, C68, C72 | `address_transceivers`, status command, empty selections | symbolic execution of the command's `Prog` |
| C69, C70, C71 | status filters, failure lines, write command | case analysis; C69 false in part |
| C73-C78 | parseable output of each table, text forms | splitting lemma for joined cells, whole-domain tables; C73, C77 false in part |
| C79-C81 | `ConfigBuilder`, `Controller::new`, the tool's configuration | case analysis over arbitrary interface lists; C79, C81 false in part |
| C82 | the loop together with the handler task and the two bounded channels between them (`Model/Handler.lean`) | false of the code: a witness history that stalls; exact characterisation of the stalled states by an invariant |
| C83 | the same | induction over histories; refinement of the loop with handler to the loop |
| C84-C86 | all public methods (`Model/Ops.lean`) | a program logic: every call and result within the given set, by induction over programs; `AllCalls` for any replies |
| C87 | `set_software_power_state` | false of the code: a witness run; the exact effect proved for any replies |
| C88, C89 | `main` of the tool (`Model/CliMain.lean`) | the requests each program can make, by induction over programs (`Only`, `Scoped`) |
| C90 | commands that act, `print_failures` | from the specifications of the methods (C36, C38, C39, C43) and C70 |
| C91 | default tables, `print_monitors`, `print_datapath` (`Model/CliTable.lean`) | a reader of lines finds the ports in order; partition from C34-C42, C63, C68 |
| C92 | the vendor table of the tool (`Model/CliTable.lean`) | the length of decoded text is bounded by the bytes read; columns of padded text |
| C93 | `main` of the tool | the causes of an abort of every command, from the results on methods and on printing |
| C94 | `dispatch` of the datapath command, the controller and the decoder together | results on reading memory (C41), decoding (C60) and the shape of the tables printed |
| C95 | `dispatch` of three commands, the controller and the decoders together | results on reading memory (C41), decoding (C55, C58) and lines of tables |
| C96 | `dispatch` of the monitors command, the controller and the decoder together | results on reading memory (C41), decoding (C56, C57) and the lines printed |
| C97 | `dispatch` of seven commands, the controller and the SP's answers together | results on reports of the SP (C39, C48, C68), large reads (C63), the MAC range (C78) and lines of tables |
| C98 | `main`, for a command with and without the flag | equality of programs up to the lines printed |
| C99 | `main`, with and without the flag | equality of programs up to the failures listed |
| C100 | `f32` conversions of the monitors decoder | rounding to nearest even proved from its definition; error bounds by linear arithmetic |
| C101 | `display_list`, with the decoder | bound on the error of arithmetic below half of the last decimal |
| C102 | `{}` of `f32`, with the decoder | invariant of the search for the shortest decimal |
| C103 | `main`, `readCmd`, `writeCmd` | exact conditions of the set-up functions (C09-C11, C71) carried through the commands |
| C104 | `setPower`, `power` | state of the port followed through each step (`stepRan_at`), last write decides (`softKinds_last`) |
| C105 | `setLeds`, `leds`, `write`, `read`, `reset`, `status` | effect of the one acknowledged request, queries leave the board alone |
| C106 | all methods (`Op`) | from C84 and C85, by induction over the exchanges |
| C107 | all methods (`Op`), `main` | bounds add up along `>>=`; unsupported kinds abort before reading, and the kinds of a split are distinct, so at most four are read |
| C108 | `Sys` (tasks, loop, network, SP), `Op`, `main` | potential: steps left per task and in the loop, which no event increases and each step of the tool decreases |
| C109 | `failureText`, `TransceiverError.text`, `main` | a reader of standard error (`readFailures`) gives back the ports and what the errors tell |
| C110 | all methods, `main` | program logic `Honest`: errors in results are among those of the responses |
| C111 | all methods, `main` | false for decoding commands (`Cli.C111_counterexample`); program logic `Honest` for the others |
| C112 | all methods, `main` | program logic `Sat` over histories: every `fail` is reached only with its grounds in the history |
| C113 | all methods, `main` | program logic `Strict`: the continuation of an error is to fail with it; `Loose` for the fallback of `status` |
| C114 | `run`, `errorReport`, `CtlError.chain`, `MessageBody.debug` | a reader of standard error (`readReport`), down to a parser of `Debug` text (`readMessage`), gives back step and cause |
| C115 | `run`, `SetupError.report`, `LargeAccessError.chain` | false for reads past the end (`C115_counterexample`); a reader (`readRefusal`) and the values of the arguments (`OwnValues`) for the rest |
| C116 | `toJson`, `ofJson` of each type, `double`, `shortestNumber` | read after write is the identity; false for Ethernet codes without a name (`C116_counterexample`), exact condition in `C116_datapath_partial` |
| C117 | `toJson`, `ofJson` of each type | equivalence with a relational description of documents (`Spec/Json.lean`: `IsVendorInfo`, `IsMonitors`, `IsDatapath`, ...) |
| C118 | `Status.ofJson`, `ExtendedStatus.ofJson` | false for the extended status (`C118_counterexample`); bit by bit for what is kept |
| C119 | `toJson` of each type | injective, from C116; for codes without a name from their display text |
| C120 | `flagsText`, `flagsRead` | accepted texts characterised exactly (`C120_read`, `C120_short`); round trip for all bits |
| C121 | `parseStatus`, `dispatch` | false (`C121_counterexample`: `0x200`); `C121_named_partial`, `C121_unknown_partial` |
| C122 | `handlePacket`, `Codec Header`, `Codec Message` | relational invariant over whole histories (`C122_history`) |
| C123 | `handleSpResponse` | false (`C123_counterexample`: version 9); `C123_exact_partial`, `C123_told_partial` |
| C124 | `handleSpError`, `handleSpResponse`, `failMatching` | `failureOf` written apart from the handlers; both directions |
| C125 | `Model/Schema.lean`, `Model/Json.lean` | each field of each type; adjacently tagged and externally tagged enumerations conform to exactly one branch |
| C126 | `Model/Schema.lean`, `Model/Json.lean` | false (`C126_counterexample`); `C126_reads_partial`, `C126_written_partial` |
| C127 | `Model/Timed.lean` | the timer is reset at every transmission and no tick is due before; the history up to an answer (`answer_splits`) |
| C128 | `Model/Timed.lean` | a deadline for the request in progress and for each that waits (`Waiting`) never moves back |
| C129 | `Model/TimedSys.lean` | deadlines for tasks in line for the channel and in the channel; each request in it belongs to a different task (`Owners`) |
| C130 | `Model/TimedSys.lean` | a measure of the steps left (`measure`) that some prompt step decreases (`forward_task`, `forward_loop`) |
| C131 | `Model/System.lean`, `Spec/SysBoard.lean` | every datagram received is a call of some task, hence a query; answers are traced to a reception (C65), all of which happen in the same state |
| C132 | `Model/System.lean`, `Spec/SysBoard.lean` | invariant `OneInv` with `Stage`: each port is where the exchanges of the task left it, and all copies of the call carried out last count as one, since commands are idempotent (`effect_twice`); the loop sends no copy of a request after a later one (`wire_in_order`), so a network that keeps the order never brings an old copy |
| C133 | `Model/System.lean`, `Spec/SysBoard.lean` | every datagram received is of a call that some run of a given method makes (`asked_run`), so C84 applies to it |
| C134 | `Model/Decode/*.lean` | case analysis along the order in which the parsers consume their reads |
| C135 | `Model/Probes.lean` | induction over histories; per event the probes of sent packets are those of the actions that send |
| C136 | `Model/Probes.lean` | case analysis over the ways an event is handled (`FiredCase`, `PacketCase`) |
| C137 | `Model/Probes.lean`, `Spec/Probes.lean` | as C136; reasons are told apart by their beginnings, and the values in them are read back |
| C138 | `Model/Probes.lean` | as C136 |
| C139 | `Model/System.lean`, `Spec/Hosts.lean` | entries of the merged log that are not to change the port are dropped (`logEvolvesAt_filter`), which leaves one host's log; C132 is proved port by port (`order_at`) with other tasks that only have to spare that port |
| C140 | `Model/System.lean`, `Spec/Linear.lean` | each answered call is tied to the copy of its datagram whose answer it got (`Marked`, kept by each step); the order is that of these copies in the SP's log; repeated copies are dropped from the log one block at a time (`collapse`); the cut is an invariant of the history (`CutInv`) |
| C141 | `Model/Power.lean`, `Model/System.lean`, `Spec/Linear.lean` | each successful task's calls are classified by what they do to the port (`Offs`, `Ons`: what is followed by what); then the last act on the supply, on reset, on the pin and on the control byte decide (`Race.winner`) |
| C142 | `Model/CliMain.lean`, `Model/Power.lean`, `Model/System.lean` | false for low and high power (`C142_counterexample`, `C142_false`); `C142_board_partial`, `C142_net_partial` |
| C143 | `Model/CliMain.lean`, `Model/Power.lean` | proved (`C143_*`), with the conditions of C142 for low and high power in the statement |
| C144 | `Model/System.lean`, `Model/Controller.lean` | proved (`C144_atomic`, `C144_last`) |
| C145 | `Model/System.lean`, `Model/Controller.lean` | proved (`C145_linearizable`, `C145_fresh`) |
| C146 | `Model/System.lean`, `Model/Controller.lean`, `Model/Power.lean` | proved (`C146_linear`, `C146_atomic`, `C146_linearizable`, `C146_race`): the receptions of all hosts, with copies made one |
| C147 | `Model/System.lean` | false (`C147_false`); `C147_once_partial`, `C147_single_try_partial` |
| C148 | `Model/Controller.lean`, `Model/Decode/*` | proved (`C148_left_out`, `C148_memory_model`, `C148_flat`): the parser's data is looked up when it asks for it |
| C149 | `Model/Args.lean` | partial: false of `read-upper` (`C149_false`, `C149_read_upper`); all other letters and all names are distinct (`C149_distinct_partial`) |
| C150 | `Model/Args.lean` | partial: false for empty flags of `status` (`C150_false`); `C150_same`, `C150_causes_partial`; the rules are needed (`C150_needed`) |
| C151 | `Model/Args.lean` | partial: false for `--omit-header` (`C151_false`); fields, separators and banks (`C151_idle`, `C151_refused_partial`) |
| C152 | `Model/Args.lean`, `Model/Cli.lean`, `Model/CliTable.lean` | partial: false for power states (`C152_false`, `C152_capitals_partial`); fields, ports, flags (`C152_fields`, `C152_ports`, `C152_values`) |
| C153 | `Model/Cli.lean`, `Model/CliPrint.lean` | partial: false (`C153_false`, `C153_printed`); with blanks, exact for all lengths (`C153_blanked_partial`, `C153_hex_long`, `C153_binary_long`) |
| C154 | `Spec/Board.lean`, `Model/Controller.lean`, `Model/Power.lean` | proved (`C154_command`, `C154_write`, `C154_reset`, `C154_power`) |
| C155 | `Spec/Board.lean`, `Model/Controller.lean` | proved (`C155_restore`, `C155_same`) |
| C156 | `Model/CliMain.lean`, `Spec/Board.lean` | proved: `C156_spared`, `C156_unlisted`, `C156_net` |
| C157 | `Model/Power.lean`, `Spec/Board.lean` | proved: `C157_running`, `C157_requests`, `C157_up`, `C157_tool`, `C157_net` |
| C158 | `Model/Power.lean`, `Spec/Board.lean` | proved: `C158_requests`, `C158_ran`, `C158_refused`, `C158_tool`, `C158_net` |
| C159 | `Model/Power.lean`, `Spec/Board.lean` | false of the code: `C159_counterexample`; `C159_partial`, `C159_off`, `C159_tool_partial` |
| C160 | `Model/Power.lean`, `Spec/Board.lean` | false of the code: `C160_counterexample`; `C160_partial`, `C160_off`, `C160_tool_partial` |
| C161 | `Model/Controller.lean`, `Model/Power.lean`, `Spec/Board.lean` | proved of `reset`: `C161_reset`; false of `set_power`: `C161_counterexample`; `C161_power_partial` |

"False" above means: reading the code shows that the property fails. The negation is proved with a concrete witness, and
what does hold is proved as `…_partial`.

### Code covered, file by file

| file in `/repo` | modelled | not modelled |
|---|---|---|
| `messages/src/lib.rs`, `module_id.rs` | `ModuleId`, `merge/remove/keep/filter_module_data`, status flags | formatting of flags other than the tool's status text |
| `messages/src/mac.rs` | all | derives, JSON schema |
| `messages/src/mgmt/*` | pages, reads, writes, `build_many`, verification | nothing of substance |
| `messages/src/message.rs` | every wire type of the current version, errors, `DeserializedErrors` | older message versions' handling beyond decoding |
| `decode/src/*` | identification, vendor, memory model, monitors, datapath, power control, all `bitfield_enum!` tables, the JSON form of vendor information, monitors and datapaths (`Model/Json.lean`) and their JSON schemas (`Model/Schema.lean`) | `Display` of composite values; text of JSON documents (spaces, escapes, notation of numbers); reading of numbers is taken to be correctly rounded, which `serde_json` is for up to 15 digits and powers of ten up to 22, as all numbers it writes here have |
| `controller/src/results.rs` | all | accessors that return one field |
| `controller/src/large_access.rs`, `messages.rs` | splitting of large accesses, request and response types | - |
| `controller/src/ioloop.rs` | the whole loop; with the handler's channels in `Model/Handler.lean`, its DTrace probes in `Model/Probes.lean` | logging, OS send errors other than as events |
| `controller/src/controller.rs` | all public operations, id counter, start-up | logging, the SP-request handler given by the user (an arbitrary environment) |
| `controller/src/config.rs` | `ConfigBuilder`, address choice | `getifaddrs` (an arbitrary list of interfaces) |
| `controller/src/bin/xcvradm.rs` | argument parsers, the options of each command and the rules declared between them (`Model/Args.lean`), `main` from the selection on, all commands, all output on standard output, the list of failures on standard error with the texts of module errors (`Model/ErrText.lean`), the report on the error `main` returns (`Model/MainText.lean`, `Debug.lean`) | `clap` itself beyond the meaning of those rules, layout of grids by `tabled`, texts of errors of the standard library, backtraces, log lines, log level |
| `dtrace/*` (scripts), `build.rs`, tests | - | all |

### Environment of the whole-system model (`Model/System.lean`, C65 and C66)

Any number of callers run any programs concurrently. The network may lose, delay, reorder and (unless a theorem says
otherwise) copy packets; it does not forge SP responses. The SP is any transition function on any state that answers a
request under the id of that request. There is one controller process, whose ids start at zero, and it makes fewer than
2^64 calls. Scheduling is arbitrary: the history is any list of events.

## 3. Trusted base

* Lean's kernel, and the axioms printed by `#print axioms` for each theorem (at most `propext`, `Classical.choice`, `Quot.sound`).
  There is no axiom, `sorry`, `native_decide` or `bv_decide` in the development. Nothing from Mathlib is imported.
* The reading of `/repo` recorded in the doc comments, and the external crates' behaviour as described in section 1:
  `hubpack`, `tokio` (`mpsc`, `oneshot`, `select!`, `interval`), `bitflags`, `itertools`, the standard library's `str`,
  `char`, `u8::from_str_radix`, `BTreeMap`, `Ipv6Addr`.
* The specifications in `Verif/Spec`, which say what the properties mean. Addresses and codes there are written from the
  documents the code cites (SFF-8636, CMIS 5.0), from memory.

## 4. Where the code differs from the property

Each item is proved with a concrete witness (theorem `Cxx_counterexample` or `Cxx_false`), beside a theorem about what does hold.

* C06 (MAC range validation rejects exactly the unusable ranges). False of the code: C06_false. C06_exact_partial is
  the exact acceptance condition (one address too strict); C06_sound is the safe half.
* C08 (MAC ranges received from the wire cannot crash the host). False of the code: C08_false (an unvalidated wire
  range overflows). C08_exact_partial is the exact abort condition; C08_validated_partial covers ranges from a
  validating peer.
* C10 (Upper pages are accepted iff the specification defines them). SFF-8636 and banked CMIS proved in full; false
  for unbanked CMIS pages (C10_cmis_unbanked_false), exact behaviour in C10_cmis_unbanked_partial.
* C12 (Every in-bounds large SFF-8636 write can be split). False of the code: C12_false. C12_exact_partial gives the
  exact condition.
* C17 (Excess trailing bytes never create extra errors). False of the code: C17_false. C17_prefix_partial gives the
  exact result; C26 shows the request loop never passes an excess.
* C24 (Every request completes when retries are limited). False of the code: a datagram can kill the loop
  (C24_counterexample). Proved: answered within max(1, limit) ticks unless the loop's task has died.
* C27 (No received packet can crash the request loop). False of the code: a bare SpResponse header panics the task.
  Proved: that is the only datagram that does, when handler and caller are alive.
* C28 (Abandoning a call does not disturb the loop). False of the code: a caller that gives up before its answer kills
  the loop. Proved: giving up after the answer changes no later effect.
* C30 (Protocol-error replies are labelled as errors). False of the code for HostRequest/HostResponse datagrams: the
  received header is echoed. Proved: id echoed always, kind Error for undecodable SP requests, no other sources.
* C31 (Replies to SP requests are decodable by the peer). False of the code: the header is not sent. Proved: message
  then data.
* C37 (The declared request data length matches what is sent). False as stated: a write addressing n modules declares
  n times its length but carries its data once (C37_counterexample, C37_false). C37_partial: it holds of every request
  of every public method except a write to other than one module; a write always carries exactly its own length.
* C40 (Unexpected answers become errors, not crashes). False as stated: unknown LED states, unknown extended-status
  flags and a read echoed with another length panic, and a wrong kind is reported as UnexpectedMessage
  (C40_counterexample, C40_false). C40_wrong_kind_partial: an answer of the wrong kind is an error, for every operation.
  C40_proper_partial: against an SP whose responses answer the requests, no method aborts, whatever errors the I/O loop
  reports, unless a CMIS module returned one of the reserved codes of C53.
* C42 (Errors are attributed to the module that failed). False of the code: errors are collected in the order of
  processing (identification failures, then kind by kind) but paired with ports in port order.
  C42_counterexample/C42_false; C42_partial states the actual order and that attribution is right when that order is the
  port order.
* C45 (Setting power reports every requested module). False: C45_override_counterexample (a module under software
  override is never reported), C45_mixed_counterexample (powered modules are dropped if another is off),
  C45_twice_counterexample (success and failure at once). C45_powered_partial and C45_unpowered_partial prove it for
  modules of one kind in a uniform state. For modules of one kind, C45_silent_partial says exactly which modules are left out of the report (powered while another is not, or under software override) and C45_twice_partial why one is reported twice; C45_missing_partial names all reasons for any mixture of kinds.
* C104 holds only for modules that are not in the list of failures as well. With low power asked for and the low power
  pin failing, `set_power` still takes the module out of reset: it runs at high power and is in both lists
  (C104_both_counterexample, C104_both).
* C47 (Software power control is preserved). False for sets of more than one kind: C47_counterexample (override
  removed), C47_skipped_counterexample (not written at all). C47_own_byte_partial holds always. For modules of one kind,
  C47_one_kind_partial shows that the override is kept, and C47_reached_partial that each powered module not reported as
  failed got the requested power.
* C51 (Enum names round-trip through strings). False for Ethernet compliance codes without exactly one known bit
  (C51_counterexample); proved for all ten tables, the datapath state, and the seven named Ethernet codes.
* C52 (OUIs round-trip through strings). Round trip proved for all OUIs. The second half is false of the code: a plus
  sign and single digits are accepted; the exact set of accepted strings is proved.
* C53 (Decoders agree with the reads they request). True of SFF-8636 for all memories; for CMIS the exact abort
  conditions are proved (reserved bank code, reserved bias multiplier, unknown media type, unlisted application) and
  shown reachable, so the full property is false of the code.
* C57 (Auxiliary monitors are present iff advertised). False of the code: the presence mask covers temperature and
  voltage and misses the custom monitor, and cooler current is read unsigned. Negation by witness; proved where aux1-3
  are advertised or nothing confusing is, and no cooler current is negative; exact presence condition proved.
* C61 (CMIS lane state comes from the lane's own nibble). False of the code: the nibbles are swapped and the top bit
  is dropped. Negation by witness; the actual rule is proved for all memories.
* C63 (Multi-chunk reads from the command line survive module failures). False of the code: a module failing any chunk
  but the last makes the tool abort (C63_false). Proved: the complete case distinction of outcomes for every conforming
  SP (C63_outcome_partial), and that a successful command lists each port once with its error or with exactly the bytes
  asked for (C63_data).
* C64 (Write data input is parsed totally). False of the code: when the kind is to be detected, text of one byte or
  with a character across byte 2 aborts; text beyond 512 bytes and binary input beyond 128 bytes are silently cut
  (C64_false). Proved: exactly which inputs abort, and that text up to 512 bytes is accepted exactly if it is at most
  128 numbers that fit an octet, with that meaning.
* C66 (A finished call has no further effect). False of the code: a retransmission sent before the response came may
  reach the SP after the call returned, e.g. a second AssertReset after reset finished (C66_false), even without copies
  made by the network. Proved: the SP receives a request at most max(1, n_retries) times without network copies, and
  never after the return if only one try is configured.
* C69 (Status filters say what they say). False of the code: with several flags in --without a module counts as being
  without them unless all are set (C69_counterexample), and empty flags abort after the exchange
  (C69_empty_counterexample). Proved: the exact truth value printed, and the property for at most one flag in --without.
* C73 (Parseable output can be split back into its fields). False for vendor information: texts stored in a module are
  printed without escaping, so a colon or line break in them changes the fields (C73_counterexample,
  C73_line_counterexample, C73_false). Proved for every other table with the default separator, for vendor information
  if the stored texts contain neither, and for any separator of one character that does not occur in the cells.
* C77 (The column of average power holds averages). False: the field is filled from peak-to-peak measurements too,
  with nothing to tell them apart (C77_counterexample, C77_false). Proved for modules without the monitor or that
  measure averages.
* C79 (The configured address belongs to the interface). False: only the first IPv6 address of the interface is
  compared, so any other assigned address is rejected (C79_counterexample, C79_false). Proved: exactly the first one is
  accepted, what is accepted is assigned, and the choice of the link-local address.
* C81 (Starting a controller does not abort). False: the builder accepts a retry interval of zero, with which tokio's
  interval panics (C81_counterexample, C81_false). Proved for all other configurations and for every configuration of
  the command line tool, whose parser bounds the interval.
* C82 (Requests from the SP cannot stall the host). False: with a handler that works on `width` requests at a time over a
  channel of `capacity`, `capacity + width + 2` requests can leave the loop waiting for room in the handler's channel and
  the handler waiting for room in the channel back (capacity one), for ever. The command line tool stalls after four
  (C82_counterexample, C82_false). Proved: the loop recovers unless both channels and the handler are full
  (C82_exact_partial), so with fewer requests (C82_few_partial) or a handler that never replies (C82_silent_partial).
* C87 (Setting the power leaves the rest of the control byte alone). False: the whole byte is written with zeros in all other
  bits (C87_counterexample, C87_false). Proved: exactly zeros are written there, so nothing is lost iff those bits were zero
  (C87_zeros_partial).
**C93** (no aborts of the tool) is false: `C93_counterexample`. `C93_causes_partial` lists the possible causes for every command and shows there are no others. Missing: the causes themselves, which are bugs of the tool (empty flags, failures before the last chunk, `buf[..2]`), or of the decoders (C40) and of the unvalidated MAC range (C08).
**C96** (monitors shown) is false: `C96_counterexample` (a cooler current of -1/32767 is shown as about +2) and `C96_custom_false` (two modules that differ in their custom monitor are shown alike). `C96_monitors_partial` and `C96_parseable_partial` say exactly what is shown; `C96_heating_partial` is the property without the custom monitor for modules that only heat. Missing: the two parts that are false. The cooler current is a fraction but labelled `(mA)`, and the labels of 23 and 27 characters do not fit the 22 columns, so these colons are out of line.
**C98** (`--omit-header`) is false: `status --all`, `--with` and `--without` accept the flag and print their header all the same (`C98_ignored`, `C98_counterexample`). `C98_omit_partial` and `C98_header` are the property for every other command and form with a header. Missing: the part that is false.
**C101** (powers and bias currents shown exactly) is false: with the multiplier 4 a stored 512.216 mA is shown as 512.2159 (`C101_counterexample`). `C101_power` and `C101_bias_partial` prove it for powers and for multipliers 1 and 2, `C101_scaled_partial` for the multiplier 4 up to 400 mA and, above, that the number shown is off by one unit of the last decimal at most. Missing: the part that is false.
**C111** (listed failures). `vendor-info`, `monitors`, `datapath`, `memory-model`, `power` and `set-power` may print `3 Hardware error accessing module 4`: the errors of `parse_modules_by_identifier` are in the order of work, the ports in increasing order (see C42). The two numbers of the line contradict each other; the one in the message is right (C110).
**C115** (text of refused commands). `Error::ByteOutOfRange` has the message `End of read (<the value>) is out of the range [0, 255]`, literally: the value is never put in, so that `read-upper 200 100` and `read-upper 250 150` fail with the same words. (The range is also off by one: 256 is accepted as the end of a read.)
**C116** (JSON round trip). `EthernetComplianceCode` is written as its `Display` text and read with `FromStr`, which knows the seven names but not the text `Unknown (0x..)`. An SFF-8636 module whose compliance byte is zero or has several bits set has a datapath whose JSON document cannot be read back (`C116_counterexample`). `C116_datapath_partial`: it is read back exactly if the code has a name or there is none, and refused otherwise.
**C118** (status words in JSON). `ExtendedStatus` is read from JSON with `from_bits_truncate`, so that flags of a newer version are dropped without notice (`0x201` is read as `0x001`, `C118_counterexample`), while the wire format refuses them (`from_bits`). `C118_extended_partial`: exactly the nine known flags are kept.
**C121** (flags that select columns). The help text says that any set of valid status bits may be used. `FromStr` of `bitflags` also takes hexadecimal numbers and keeps bits that no flag has, so `--with 0x200` is accepted (`C121_counterexample`). No module can report such a bit, hence every module is shown with 0, and with `--without 0x200` with 1 (`C121_unknown_partial`), where an error message would be expected.
**C123** (unsupported versions). The documentation of the versions (`message.rs` 42-50) says that a message of a later version that cannot be decoded should lead to an error such as `VersionMismatch`. The loop compares the version with the smallest supported one only (`ioloop.rs` 484-497), so a response of version 9 with an unknown body is reported as `Serialization` (`C123_counterexample`). Version 0 is the only one reported as a mismatch (`C123_exact_partial`).
**C126** (schemas and reading). The published schemas and what is read differ in both directions (`C126_counterexample`): the schema of a byte says `uint8` and a minimum of 0 only, so 256 and 7.0 conform and are refused when read; the schemas of codes, which are written as text, admit any text; and serde reads structs from arrays and unit variants from objects with a null, which do not conform. With these three kinds of leaves made exact (`readable`), everything that conforms is read (`C126_reads_partial`) and everything that is written conforms (`C126_written_partial`).
**C132**: a module whose reset succeeded can be in reset: the request to assert reset was sent twice, and the second copy arrives after the request to deassert it (`resetDemo`, `C132_false`). Message ids are not used by the SP to drop such copies, as far as this repository tells. It takes a network that changes the order of datagrams: on one that does not, retries do no harm (`C132_fifo_partial`, `C132_order_partial`).
**C134**: `VendorInfo::parse`, `Monitors::parse` and `Datapath::parse` slice, index and `assert_eq!` without checking lengths, so short reads make them panic instead of returning `Error::ParseFailed` (`C134_false`). The controller only gives them reads of the lengths asked for (C57).
**C136**: `send_protocol_error` sends to the peer that sent the bad packet, but its probes (and its log message) give `self.peer_addr` (`C136_false`).
**C137**: `handle_sp_request` does not compare the kind of the message with the header, so a host request is dispatched to the request handler as if it were a request of the SP (`C137_false`). `bad__message` for an unreadable header is given a string literal with `{e:?}` in it that is not put through `format!` (`C137_reason_false`).
**C138**: `message__matched` is documented to fire for a valid response, but fires before the length of the response is checked (`C138_false`).
**C142** (silence means success). False for `set-power low` and `high` when modules selected differ in their need of power (`C142_counterexample`, `C142_false`): module 0 is off, module 1 is powered and its control byte asks for high power; both are told to go to low power; module 1 is dropped when module 0 is taken out of reset, is never written to, stays in high power, and no failure line names it. `C142_board_partial` proves the claim for every other command, and for `set-power` of a single module (also one under software override, for which the method reports neither success nor failure, C45) or of modules of one kind of which all or none need power (`Steady`). `C142_net_partial` carries it over the network.
**C147** (several hosts, requests sent again): false. The SP serves a request again when it is sent again, and another host's operation may have been served in between, which is thereby undone. Proved for hosts from which the SP receives no such request twice; a single try and a network that makes no copies are enough.
**C149**: `read-upper` declares `page` with the letter `p` (line 528) and takes in `ParsableArgs`, which declares `parseable` with the same letter (702). `clap` refuses such a declaration with an assertion in debug builds. Everywhere else `-p` after the command means the parseable form.
**C150**: `main` only prints a message if both sets of flags are empty (974-979) and goes on; `print_module_status` then reaches `unreachable!("verified in caller")` (1623).
**C151**: `--omit-header` (367-369) conflicts with nothing, but `print_all_status` and the branch for `Limited` always print their header, and `print_monitors` in the default form prints none.
**C152**: `print_power_mode` (1552) prints the derived `Debug` of `PowerState`, also in the parseable form, so that `set-power` refuses what `power` printed; `print_led_state` (1911) does so in the default form.
**C153**: `print_read_data` joins bytes with commas (1696), `load_known_write_data` splits at white space (745) and reads at most 512 bytes of text (741-743); a page of 128 bytes printed in binary has 1407 characters, and its first 512 are well-formed numbers.
**C159**: `set_power` to low power asserts reset on the modules that are off and not in reset, but then calls `enable_power` with all modules that need power, also with those for which asserting reset failed. Such a module is powered up out of reset (`C159_counterexample`). For every other module, and for powering off, a supply is switched only in reset (`C159_partial`, `C159_off`).
**C160**: `set_power` to low power calls `deassert_reset` (662-667) with all modules that need power, also with those for which `enable_power` or setting the low power pin failed. Such a module is taken out of reset without a supply (`C160_counterexample`). For every other module the order is kept (`C160_partial`).
**C161**: as for C159 and C160, `set_power` calls `deassert_reset` (662-667) with all modules that need power, also with those for which `assert_reset` failed (`C161_counterexample`); `reset` does not (`C161_reset`).

Noticed while reading, not stated as a property:

* CMIS 5.0 puts the unsupported media lanes at page 00 byte 210, the code reads byte 209.
* The loop does not compare the source address of a packet with the configured peer.
* A write command whose modules all fail still exits with status 0 after printing the failures.
* The unused struct `StatusFlags` of the tool gives two arguments the same short name `-w`.
* The `custom` auxiliary monitor is decoded but never printed.

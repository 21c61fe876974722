# A Lean 4 model of lightway-core and what is proved about it

## 1. Layout

| path | content |
|---|---|
| `properties.jsonl` | the English properties C01.. |
| `lean/Verif/Basic.lean` | bytes, C integers, C strings, checked reads and writes |
| `lean/Verif/Model/*.lean` | the model, one file per source file or group; each definition cites file and lines |
| `lean/Verif/Spec/*.lean` | small specifications, independent of the model's functions (history predicates, ones-complement sum, enumerations, ...) |
| `lean/Verif/Proofs/*.lean` | helper lemmas: frame lemmas, the micro-step relation, invariants |
| `lean/Verif/Props/*.lean` | the property theorems, with a non-vacuity example beside each |
| `seeded/LOG.jsonl` | wrong programs tried against the theorems |
| `MANIFEST.json` | property -> theorem names and status |

## 2. The model

`Conn` is `he_conn_t` (every field used by the code) plus `log`, the history of everything observable:
callbacks with their arguments and results, calls into the TLS library, I/O requests of the TLS library,
random numbers, clock readings, allocations, API entries (`.api`) and returns (`.ret`), and undefined
behaviour (`.ub site`).  API functions are total functions `env → conn → args → conn × return code`.

Everything outside the library is an oracle in `Env` (host callbacks, TLS library, RNG, clock,
allocator) that receives the complete history, or a list of results inside the operation
(`wolfSSL_read` outcomes of one receive call).  A theorem over all `env` and all operation lists therefore
quantifies over every host, every TLS-library behaviour, every peer and every schedule of API calls.
Plugins are functions of the history and the packet.

`run env ops` is a history of API calls on a fresh connection.  Connecting again, failing calls and calls
in any state are all allowed.

Integers are `Nat`/`Int` with explicit truncation (`% 65536`, `% 2^64`) where the C type wraps and the
model can reach the wrap.  Multi-byte host-order fields assume a little-endian target.  Out-of-bounds
access, NULL dereference, `int32_t` overflow, failing `assert` and endless loops are a distinct outcome.

### Modelled (source → model)

| source | model |
|---|---|
| `config.c`, `utils.c` (strings) | `Model/Config.lean` |
| `network.c`, `mss.c` | `Model/Network.lean` |
| `plugin_chain.c` | `Model/Plugin.lean` |
| `frag.c` | `Model/Frag.lean` (receive), `Model/Flow.lean` (send) |
| `wolf.c`, `core.c` | `Model/Wolf.lean` |
| `conn.c` | `Model/ConnCore.lean`, `Model/Api.lean` |
| `pmtud.c` | `Model/PmtudM.lean` |
| `msg_handlers.c` | `Model/Msg.lean` |
| `flow.c` | `Model/Flow.lean` |
| `ssl_ctx.c` | `Model/SslCtxM.lean` |
| `client.c` | `Model/Client.lean` |
| `utils.c` (names) | `Model/Utils.lean` |
| `plugin_stats.c` | `Model/Stats.lean` |
| `HE_ENABLE_MULTITHREADED` shared fields, thread-local variables | `Model/Conc.lean`, `Model/Threads.lean` |
| pointer level of `frag.c`, `plugin_chain.c` (create/register/destroy), `he_conn_create/destroy`, `he_ssl_ctx_create/destroy`, `client.c` allocation | `Model/Heap.lean` |
| `ssl_ctx.c` start/stop and setters as a history of one context | `Model/CtxLife.lean` |
| getters of `conn.c` | `Model/Getters.lean` |

Besides the observable effects the history carries ghost markers that the code does not emit and that change nothing:
`.message` (a plaintext message about to be dispatched), `.callbacks` (callback set now installed), `.role`, `.table`
(size of the fragment table asked for), `.chains` (plugin chains installed), `.input` (datagram accepted by the header
check: session and body), `.timer` (value stored for `he_conn_get_nudge_time`).  They let the specifications be read off
the history alone.

### Not modelled

* NULL-argument branches of internal functions.  Those of the public functions are modelled in Model/Null.lean (C104), except that
  `he_conn_get_ssl_error(NULL)`, `he_conn_set_ssl_error(NULL)` and `stats_plugin_create(NULL)` dereference the pointer and are not modelled.
* wolfSSL itself: cryptography, record layer, handshake.  It is an arbitrary oracle; its calls on a NULL
  object are assumed to return `BAD_FUNC_ARG` without I/O, except `wolfSSL_version(NULL)`, recorded as UB.
* Reentrant calls of the API from inside callbacks, in the main model; Model/Reenter.lean is a second model that has them (C93-C95), proved to agree with the main one when no such call is made (`reentrant_conforms`). Calls from inside the outside write callback and from plugins (which do not get the connection) are modelled in neither.
* In the history model (`run`): destruction and addresses; these are in the separate pointer-level model
  `Model/Heap.lean`, related to the history model for the fragment table by C82. `memory.c` is the allocator oracle there; its own state machine is `Model/Memory.lean` (C92).
* That every callback is passed the context pointer (the pointer itself, its setter and getter are in Model/Null.lean).
* Floating point in `plugin_stats.c` (sums are exact), its printing.
* In the multithreaded build only the three shared-field protocols of `Model/Conc.lean`, under
  sequentially consistent interleaving, the thread-local variables of `Model/Threads.lean` (C113), the identifier counters
  (C114), the connection state under he_conn_disconnect and the handlers that set ONLINE (C115), and the two write callback
  pointers (C117), the entries of the fragment table (C118),
  the session identifiers of a server (C119),
  the nudge time and timer (C121) and the two renegotiation fields (C123). Everything else is the
  ordinary build; TLS calls, callbacks and whole API calls running concurrently on one connection are not modelled.
* The window between `wolfSSL_new` and `wolfSSL_SetIO*Ctx` in connect (the I/O context is set at once).
* What a packet pointer kept after `he_conn_outside_data_received` returned points to (the model keeps the bytes;
  in C they belong to the host). When such a pointer is followed is C112.

## 3. Trusted base

* Lean 4.33.0's kernel.  Axioms: at most `propext`, `Classical.choice`, `Quot.sound` (checked with
  `#print axioms` by the gate); no `native_decide`, no `bv_decide`, no own axioms.
* The reading of the C code: nothing was executed.  Struct layouts are the packed ones declared in
  `he_internal.h`.
* glibc's `sscanf("%u")` as described at `scanU`; C library string functions as in `Basic.lean`.
* The definitions under `Spec/` say what the English says.

## 4. Proof technique

1. *Frame lemmas*: a leaf function changes only the fields it names.
2. *Micro-steps* (`Proofs/Micro.lean`): an inductive relation `Micro env api c c'` with one constructor per
   atomic update and its guard.  Every API function is shown to be a sequence of micro-steps
   (`Star`), so an invariant is proved once, by cases on the constructor, and holds for every
   reachable state.
3. *History predicates* (`Spec/History.lean`): `Permitted e l` says when effect `e` may follow history
   `l`; the main theorem is that every effect of every run is permitted.  Trace properties are
   corollaries, stated over decompositions `log = newer ++ e :: older`.
4. *Round trips and arithmetic*: direct proofs, induction on lists.
5. *False properties*: a concrete witness run by the model (`decide`/`rfl`) refutes the full statement, and
   a `_partial` theorem proves the strongest true part found.

## 5. Per property

| id | what is modelled | how |
|---|---|---|
| C01 | effect `.insideWrite` with history; `Permitted`: state read off the history is ONLINE | micro-step invariant |
| C02 | `.state .online` on a server; history since the last server connect contains an approving auth callback and a successful populate | micro-step invariant |
| C03 | `.state .online` on a client; the history directly before is config received, CONFIGURING, callback success | micro-step invariant |
| C04 | edge relation on `.state` effects, state = last `.state` effect, notification flag = callback registered | micro-step invariant |
| C05 | `handleAuth` with a false verdict, then every later operation list without connect | function lemma + edge relation by induction over operations |
| C06 | closed history predicate; no such callbacks afterwards | micro-step invariant |
| C07 | `insidePacket` returns the same connection | case analysis |
| C08 | role read off the history; handlers on the wrong role are the identity | micro-step invariant + case analysis |
| C09 | `dataMsg` then `handleData` | byte-level round trip, all versions and padding modes |
| C10 | `dataPacketLength`, `dataMsg` | arithmetic |
| C11 | TLS writes made by `fragAndSend` as a list | induction on the fragment loop |
| C12 | `FragEntry.update` folded over fragments; contiguous growth | induction with invariant "one node" |
| C13 | same, arbitrary order | false: witness; partial = C12 |
| C14 | all arrivals are fragments of one packet; every delivered byte string is the packet | invariant over arbitrary update sequences |
| C15 | byte-wise provenance of the slot buffer | invariant over arbitrary update sequences |
| C16 | slot index injective when the table has 65536 slots | arithmetic + invariant; false for smaller tables: witness |
| C17 | `fragReceive` with an expired slot behaves as on a fresh slot | case analysis |
| C18 | no `.ub` effect in any run when allocation succeeds | well-formedness invariant, micro-steps; failing allocation: witness |
| C19 | `clampMss` | induction on the option loop |
| C20 | ones-complement sum specification | modular arithmetic; odd offset: witness |
| C21 | `clampMss` never returns the undefined outcome (termination is Lean's own check) | induction |
| C22 | `diffChecksum` congruence | modular arithmetic |
| C23 | `wireHeader` parsed by specification functions | byte-level round trip |
| C24 | `outsidePacket` returns the same connection | case analysis |
| C25 | `.outsideWrite` effects | micro-step invariant |
| C26 | `.sslIn` effects of one receive call | invariant on `packetSeen` |
| C27 | `.sslIn` effects against accepted buffers | invariant: read ++ left = accepted |
| C28 | `tlsWrite` | case analysis, list concatenation |
| C29 | `dtlsWrite` outside writes | case analysis |
| C30 | session fields over one operation | micro-steps |
| C31 | session field over one operation | micro-steps |
| C32 | `Spec.Net`: a server and a client connection and every datagram either ever sent; an action is a host call on either side or the delivery (any number of times, in any order) of a sent datagram; CONFIG_IPV4 messages delivered to the client are ones the server wrote (TLS authenticity) | invariants over all action sequences; `C32_ids_are_the_servers`, `C32_acknowledged_means_heard`, `C32_converges`; `C32_delayed_datagram_reverts` shows the limit |
| C33 | `rotateSession` | case analysis; RNG 0: witness |
| C34 | `effectivePmtu` on every reachable state | pmtud invariant; for histories with later connect calls the sizes stay ≡ 0 or 2 (mod 8), which gives the exact bound 506, reached by an explicit 24-reconnect history |
| C35 | probe messages, ping id, probe counter | pmtud invariant |
| C36 | false: witness; partial: completion from SEARCHING with base acknowledged | pmtud trace |
| C37 | events acknowledge/timeout on the pmtud state | well-founded measure |
| C38 | last timer request | pmtud invariant |
| C39 | `insidePacket` with small PMTU | false: witness; partial for PMTU ≥ 552 |
| C40 | `.event pong` | case analysis on `handlePong`, invariant on the pending id |
| C41 | two connections, ping and pong bytes | round trip |
| C42 | `authUserPassMsg`/`authBufMsg` then `handleAuth` | round trip |
| C43 | `setConfigString` | string lemmas; 50: witness |
| C44 | validity predicates | case analysis |
| C45 | `.nudgeTime` effects | micro-step invariant |
| C46 | timer flag over runs after a successful connect | invariant over operations |
| C47 | TLS write in `nudge` while AUTHENTICATING | function of credentials only + frame over operations |
| C48 | `.event` effects | micro-step invariant |
| C49 | `.event` effects | micro-step invariant |
| C50 | `.netConfig` effects | micro-step invariant |
| C51 | `configIpv4Msg` then `handleConfigIpv4` | round trip |
| C52 | lexicographic order on pairs | case analysis |
| C53 | `Chain.ingress/egress` | induction on the chain |
| C54 | `isErrorFatal` | finite case analysis over all codes |
| C55 | `serverConfigMsg` then `handleServerConfig` | round trip |
| C56 | name tables against the header's enumerations | decide over the full finite tables; witness |
| C57 | `setMaxFragEntries`, `FragTable.create` | arithmetic |
| C58 | sender capacity against receiver limit | false: witness; partial for outside MTU ≤ 1614 |
| C59 | `wireHeader` with roaming disabled, `outsidePacket` of the peer | false for every packet: refutation |
| C60 | `clientConnect` on an ONLINE connection | false: witness |
| C61 | `ctxStart` after version setters | false: witness; setters after start persist |
| C62 | arguments of the auth callback | false: witness; partial for own clients |
| C63 | message buffer and username after `handleAuthBuf` | case analysis |
| C64 | `Conc.Sys` under all schedules | inductive invariant; witnesses for the two races |
| C65 | `Stats.sample` folded over lengths | induction |
| C66 | `handleAuth` on malformed messages | case analysis |
| C67 | `authDeniedMsg`; `processMessage` on a client | witness; case analysis |
| C68 | `Client.connect`, `Client.isConfigValid` | case analysis |
| C69 | `internalHandleData`, `handleData`, `handleDataFrag` | every `insideWrite` effect located in the run (Props/Reassembly) |
| C70 | `sendMessage` and every builder of a message | grammar `SentOk` (Spec/Sent) required by the small-step relation at each `write`; invariant over runs |
| C71 | `Chain.ingress`, `Chain.egress`, `insidePacketReceived`, `outsideData`, `ioStep` | every micro step that moves a packet on demands that the history does not end in a refusal; invariant over runs (Props/Veto) |
| C72 | `disconnect`, `setState`, `sendGoodbye`, `sslDo` | exact computation of the call's effects, with the TLS object, state and callbacks read off the history (Props/Life) |
| C73 | `processMessage` and every `handle*` | `Spec.screen` is the protocol table read as a filter, written without the model; invariant `Fit` over the message loop (Props/Screen): in every history the effect right after `.message m` is the one the table prescribes |
| C74 | `messageLoop`, `handleMessages`, `verifyConnection`, `outsideData` | induction on the list of read results, handlers shown to receive nothing (Proofs/NoMsg) |
| C75 | `verifyConnection`, `changeState`, `outsideData` | the small-step relation demands `Negotiated` before LINK_UP and `MsgState` before a message; exact shape of the receive call in CONNECTING (Props/Handshake) |
| C76 | `nudge`, `changeState`, `sendAuth`, `updateTimeout`, `outsideData`, `internalConnect` | invariant `Logged` over all runs (every LINK_UP in the history is followed by AUTHENTICATING and an AUTH write), using that LINK_UP is only announced by connect and receive calls; exact computation of the nudge (Props/Login) |
| C77 | `configure`, `setupType`, `setupDn`, `setupPqc`, `setupSsl`, `internalConnect`, `generateSessionId` | `Spec.setupCalls` lists the TLS calls a context asks for, without the model; the set-up functions are shown to run that list and to stop at the first failure (Proofs/Connect), then the exact course of the call (Props/Connect) |
| C78 | `configure` and every call that follows | frame lemma over the small-step relation: no step outside connecting and version choice touches the settings (Props/Settings) |
| C79 | `walk`, `FragEntry.update`, `fragApply`, `fragReceive`, `outsideData` | once an entry has two nodes, node ends stay strictly increasing and no walk loses a node, so the head never carries the last fragment (Props/Reassembly3); the growing orders are C12 |
| C80 | `Model/Heap.lean`: a heap of typed blocks with addresses, `he_calloc`/`he_free`, every function of frag.c (receiving side), plugin_chain.c, and the allocations and releases of conn.c, ssl_ctx.c, client.c, at pointer level; a host that makes any calls with handles it holds; an allocator oracle | separation-style invariant (`Holds`: the live blocks are exactly a list of cells; `SInv`: the objects plus the lost blocks), preserved by every call; the exception (unchecked record allocation) is a proved witness |
| C81 | as C80 | the invariant's list of lost blocks stays empty in clean histories; three witnesses of leaks, one of them (`C81_unbounded_growth`) for every bound, by induction |
| C82 | as C80, with the list model of `Model/Frag.lean` | refinement: `updateEntry`, `findEntry`, `fragment` on the heap against `FragEntry.update`, `FragTable.find`, `FragTable.receive`; second theorem ties `FragTable.receive` to the connection model's `fragReceive` |
| C83 | `updateTimeout`, `getNudgeTime`, `disconnect`; ghost marker `.timer ms` written where the code stores `wolf_timeout` | invariant over the small-step relation that the stored time is the last noted one (Props/NudgeTime); specification of TLS's answers in Spec/Timer |
| C84 | Model/CtxLife: the context object with its pointers and a log of TLS calls; all setters | one generic induction (`track`) over histories, with `step_fields` describing each call; specification of "value given by an entry" in Spec/Ctx |
| C85 | Model/CtxLife: `start`, `startServer`, `startCommon` call by call; TLS library as an oracle on the earlier calls | `attempt` (Spec/Ctx) carries out a plan up to its first failure; the code is shown equal to it; `C85_refines` ties it to the coarser start used by the client object |
| C86 | the receive path from the buffer to the handlers; per-handler lemmas give result and history together (`Out`) | induction on the reading loop with the trace invariant (`messageLoop_end`), then the renegotiation tail and the session check; the reasons for each code are listed in Spec/Receive (Props/Receive) |
| C87 | discovery events of the history; `Spec/Path.lean`: a path of capacity L as conditions on PONGs and timer calls (nothing is assumed of the TLS layer or of other traffic) | invariant `Acc` over micro steps (`Proofs/PmAcc.lean`) on top of the discovery invariant of C34–C38 |
| C88 | two independent runs of the model, each with its own environment, joined only by the plaintext one wrote and the other read | composition of C42/C47-style lemmas on the AUTH message (`client_auth_msg`, `authSwitch_approved`), C76 and C51 |
| C89 | two runs with their own environments; `Spec.Stream` interleaves their calls, `Spec.Relays` is the arrival of one packet's messages (Props/Stream) | induction on the stream with "no slot in use" as the receiver's invariant; per packet C09 or C11 + the reassembly lemmas of C12, extended by "the slot is free after delivery and other slots are untouched" |
| C90 | getters (Model/Getters.lean, NULL = `none`) over reachable states | setters by computation, other calls by a Micro-step invariant on the stored user name and the settings frame |
| C91 | `insidePacket`, `keepalive`, `sendServerConfig`, `fragLoop`, `sendMessage`; spec `sendCodes`, `InsideEnd` (Props/SendResult), `writeCode` (Spec/Receive) | the history a call adds is split at its TLS writes; induction over the fragment loop |
| C92 | `memory.c` as a state machine (Model/Memory); spec `ProperHistory`, `origin`, `installed` (Props/AllocP) | invariant over histories; that the library itself gives back only blocks in use is C80 |
| C93 | Model/Reenter.lean: every function of the main model that makes a callback, with a hook applied after each callback; `nested`/`runNested` iterate it over a host that may make any calls at any callback, to any depth; spec Spec/Nested.lean (`Inner`, `Calls`, `NestPermitted`) | invariant `RInv` preserved by every function for every hook that preserves it; induction on the depth; `runNested_silent` shows conformance with the main model |
| C94 | as C93 | false (two runs proved); the life cycle is proved for clients whose hosts make no calls from three named callbacks, `act := False` instance of the same invariant |
| C95 | as C93 | `ub` clause of the invariant |
| C96 | two whole runs (`run env ops`, `run env' ops'`) connected by `org`: message number j of the receiver is message number `org j` of the sender (any map: loss, reordering, repetition). `shipped` lists the packets of the sender's successful `insidePacket` calls after MSS clamping. | sender: induction over calls numbers the fragmented packets (`Line`: identifier = number mod 65536, fragments contiguous on the wire); receiver: `FInv` (what a slot holds) gives C14's hypothesis because two fragments in one slot must carry the same packet number (`same_serial`). Findings: needs a slot count that divides 65536 once identifiers wrap (65535 and 0 collide in a table of 3 slots); both sides must agree on version 1.0 or not. |
| C97 | as C96, `org` injective | every delivery starts in one message (a DATA message or the first fragment, which must hold byte 0 because an IPv4 packet does not start with 0); two deliveries never start in the same message: a message delivers at most once (`deliveredSince`), and a delivery empties the slot (`Held`); on the sender every call hands over at most one starting message (`headNo`) |
| C98 | `getSslError` (conn.c:1254-1260) and every place that records the error (conn.c:476, 749; core.c:27; flow.c:154, 249, 445, 511) | per-function lemmas (`…_diag`) that a returned TLS failure is preceded by a failed TLS call of the same API call whose error is the one recorded; composed over all calls; connect separately (`C98_connect_silent`: the one place, conn.c:257, that returns the code without recording) |
| C99 | renegotiation flag, start step, tail; `supportsRenegotiation` getter | every function is shown to add no renewal call and no STARTED event and to keep the flag, except the one step after the message loop; a three-way description of the receive call (loop not completed / nothing due / request answered) is then read off; the never-unasked half is an induction over histories using the C48 invariant. Finding: a request made while a renegotiation is open or before ONLINE is consumed silently; the getter dereferences a NULL TLS object on a connection that was never connected |
| C100 | the whole call interface; `isErrorFatal` | every receive-path function is shown to keep the state off DISCONNECTING/DISCONNECTED or to return a log-in refusal; nudging either keeps it or returns "timed out"; the remaining calls by the permitted-transition relation of C03; the session theorem is an induction over the calls |
| C101 | every function of the model, as a bound on the messages it hands to the TLS layer less those it takes from it; the network callbacks (ioStep) | `Spend k` compositional bound for every function, the fragment loop by strong induction on the packet; messages only in receive from the permission invariant; datagrams per record by walking the call's I/O steps. The bound for a packet is per 496 bytes because PMTUD never goes below 512 |
| C102 | dtlsWrite, tlsWrite, dtlsRead, tlsRead | invariant over the history: at each answer the newest entry before it fixes the answer (`ToldTrue`), carried through every fine step of every call |
| C103 | dtlsWrite's plugin run, the wire header and outsideData's plugin run and header check, on two connections with arbitrary chains (`UndoesOut`: the receiver's ingress undoes the sender's egress, for all histories) | locate the record (`step_locate`), read off what the plugins made of header ++ record, run the receiver's chain on it, decode; `undoesOut_mirrors` shows identical chains of mirroring plugins qualify |
| C104 | every public function from its first line on, pointers as `Option` (Model/Null.lean), and the context pointer; Spec/Null.lean lists which arguments are pointers | case analysis for one call, induction over histories with NULL calls among them: the connection is the one of `run` on the real calls, the context pointer the last one set |
| C105 | every function a client runs; `Spec.hide`, `Spec.hideLog`, `Spec.hideOp`, `Spec.Sealed` (TLS library, callbacks, plugins do not look inside an AUTH message) | two-run noninterference: hiding the credentials commutes with each function (`fn_par`, Proofs/Secret*), hence with `step` and by induction over the calls with `run`. Lengths of the credentials are not hidden (a token or buffer's length is the record's length). The server side, which must hand the credentials to the host's callback, is C106 |
| C106 | every function; as C105 with `srv := true`: reads are hidden too, and the authentication callbacks' arguments | the same walk, done once for both (`srv : Bool`). Verdicts are a schedule: `Sealed true` lets them depend on the history but not on the credential bytes, so the theorem compares servers that gave the same verdicts |
| C107 | as C106, with the packets hidden too (`Watch.traffic`, `hideData`, `hidePkt`); no inside plugins (they are given the packets) | the same walk; `insidePacket` is replaced by `blindPacket`, which is given the first byte and the (padded) length only (`blindPacket_par`, by C21: the clamp's result and length do not depend on contents); then two runs have the same masked state by induction |
| C108 | as C107 with the padding of the connect call's context and a bound n on the hidden lengths | `blindPacket_par` with `Unseen`; that `Unseen` holds after the connect call comes from C78 (settings), `run_outsideMtu`, and the range of the effective path MTU. For larger n the general lemma `traffic_hidden` asks that n does not exceed the path MTU at each packet |
| C109 | `tlsWrite` and `dtlsWrite` with a chain of arbitrary functions, reached through any API call | `send_fate` by cases on transport, verdict, length, callback, state and the three callback answers; `step_locate` finds the state in which the record was sent, `split_out` cuts the history there |
| C110 | `internalHandleData`, the fragment handler and the chain | the steps `Micro.insideWrite` and `Micro.insideFrag` carry the chain run; `Star.plugDeliv` (invariant `FInv` gives what the slot held) and `egress_order` give the statement. Closes the escape `insidePluginsAt = 0` of C14, C15 and C69 |
| C111 | as C107, with the packets in received DATA, deprecated-13 and fragment messages hidden too (`Watch.tunnel`, `hideIn`, `blankPkt`) and the packets handed to the host seen up to contents (`outsideTunnel`) | the same walk, with every reassembly buffer blanked but for its first byte (`seenTable`): every receive handler commutes with the mask (`handleData_par`, `fragReceive_par`, …), so the lemmas of C107 hold for the larger watch |
| C112 | `dtlsRead`, `tlsRead`, the pointers `incoming` and `streamLeft` that outlive the receive call | datagram: from C26 (`avail`) by locating the accepting effect and the return effects after it; stream: C27's prefix theorem and `step_accepted` (no call but a receive call accepts input, by `walk_call`). Exceptions by concrete runs |
| C113 | Model/Threads.lean: thread-local datagram, fetched mark and error; accesses by any threads for any connections in any order | invariant `Tells` between the variables and the history for the answers; per-thread simulation by the ordinary build's `dtlsRead` and `getSslError` (`plain_step`) |
| C114 | Model/ConcIds.lean: the two counters, an atomic increment and a load and a store, by any threads in any order | invariant between the counter and the identifiers taken, by induction on the schedule; for pings under `OneAtATime`; witnesses for the collision |
| C115 | Model/ConcStop.lean: each read and write of `state` and each call of the state callback of he_conn_disconnect, and of the handlers that set ONLINE, as one step of a thread | inductive invariant (`Inv`: while the state is DISCONNECTING a thread has DISCONNECTED still to set; once it is, somebody has told or is about to tell the host); witness schedules for the rest |
| C116 | every function; `Spec.Quiet`: `quietOp` (same call, without the three callbacks), `hushLog` (same history, their calls left out), `Deaf` (nothing else reacts to them) | two-run simulation: leaving the callbacks out commutes with every function (`Proofs.Quiet.step_par`), then induction on the calls. The PMTUD-state callback is not among them: he_conn_start_pmtu_discovery refuses without it |
| C117 | Model/ConcCall.lean: each test, fetch-and-call and clearing of `inside_write_cb`/`outside_write_cb` as one step of a thread; callback answers arbitrary | inductive invariant (pointer NULL iff cleared before; a thread about to call has found it set; what a test or call found is what the history says), then list reasoning; whole calls in sequence by a block lemma; witness schedules |
| C118 | Model/ConcFrag.lean: each access of a thread to the slot of its fragment and to the entry the slot points to (find, store, age, add, hand over, delete in three steps) as one step; entries have addresses, freed entries are gone | ownership invariant (a pointer belongs to the slot of its entry), simulation of a slot by the world with only that slot's threads, 8-step block lemma for a whole call, equation with `fragReceive` of the main model; witness schedules for the hazards |
| C119 | Model/ConcSess.lean: each read, comparison and write of `session_id` / `pending_session_id` in writing a header, taking an arriving identifier and starting a rotation, as one step of a thread; random identifiers are given | invariants over all schedules (where identifiers come from; when a header can be empty; with one receiver and one rotator, taken = begun, in order); step-by-step equality of an uninterrupted call with `wireHeader` / `updateSessionIncoming`; witnesses for the four races |
| C120 | `safeStrncpy` of Model/Config.lean (he_safe_strncpy; the caller guarantees a non-zero size not larger than the buffer) | byte by byte, from `strncpy` and the final NUL |
| C121 | the two atomic fields `wolf_timeout` and `is_nudge_timer_running`, each access of an update, a nudge or a read one step, under any schedule (`Model/ConcTime`); answers of the TLS library given, overflow left out | invariant tying the updating thread's place to the fields; weighted bound 100^(threads about to multiply); four hazards as executions |
| C122 | glibc's `%u` as `scanU`/`configMtu` in `Model/Msg` (C locale) | small grammar `ReadsNumber`/`low32`/`MtuOf` in `Spec/History`, shown to determine one MTU; part of `CfgOf`, so it holds of every configuration in every execution (C50) |
| C123 | the two fields `renegotiation_due` and `renegotiation_in_progress`, each access of the end of a receive or of a request one step, under any schedule (`Model/ConcReneg`); ONLINE, TLS calls succeed or would block | invariant tying the receiving thread's place to fields and history; causality for any number of threads; four hazards as executions |

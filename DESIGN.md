# libosmo-gprs: a machine-checked model in Lean 4

The properties are in `properties.jsonl`, the theorems that settle them in `MANIFEST.json`, the model in
`lean/Verif/{Common,Llc,Rlc,Sndcp,Sm,Gmm,Csn1}`, small independent specifications in `lean/Verif/Spec`, property
theorems in `lean/Verif/Props`, and the log of the wrong programs the theorems were tried against in
`seeded/LOG.jsonl`.

## Trusted base

* The kernel of Lean 4.33.0 and at most the three standard axioms `propext`, `Classical.choice` and `Quot.sound`.
  The axioms of each theorem are listed at the end of this file (output of `#print axioms`).
* There is no `sorry`, `admit`, axiom of our own, `native_decide`, `bv_decide`, `implemented_by` or `unsafe`.
  Finite tables are evaluated by `decide +kernel`, that is by the kernel itself.
* The faithfulness of the hand-written model to the C code.  Every definition cites the file and lines it models and
  says where it simplifies.  The descriptor tables of the CSN.1 coder (`lean/Verif/Csn1/Tables.lean`) were generated
  from the text of `src/rlcmac/csn1_ts_*.c` and the structures of the headers by a script; structure sizes and
  offsets are those of the x86-64 ABI, bit-fields included.
* The behaviour of code outside of /repo, which is not part of the model but assumed:
  * libosmocore `msgb` (octet lists; a `msgb_put` beyond the tail room aborts where it can be reached), `talloc`
    (allocation succeeds), linked lists, the red-black tree (a search tree that keeps its order whatever its shape);
  * `osmo_fsm` (masks of permitted events and states; an event that is not permitted is refused and has no effect; the
    timer of a state is started by entering it and stopped by leaving it) and `osmo_timer` (a pending flag and an expiry
    event; an expired or deleted timer does not fire);
  * frame numbers: `GSM_TDMA_FN_SUM`, `GSM_TDMA_FN_INC`, `gsm0502_fncmp`, `gsm_rfn2fn`;
  * coding helpers: `tlv_put` family (length octet of 8 bits), `tlv_parse`/`tlv_parse_one` (stay inside the given
    length), `osmo_apn_from_str`, `osmo_mobile_identity_*`, `gsm48_parse_ra`/`gsm48_encode_ra`, `gprs_tmsi2tlli`,
    `osmo_sockaddr_is_any`, `bitvec_read_field` (most significant bit first, zeros past the end, the index always
    advances), `bitvec_get_bit_pos` (negative past the end);
  * the callbacks of the application and of the neighbouring layers do not call back into the layer that calls them;
  * the glue between GMM and RLC/MAC, which is not in /repo, passes GMMRR-ASSIGN through unchanged.

## How C behaviour is rendered

* Octet buffers are `List UInt8`; integer types whose wrap-around matters are reduced explicitly (`% 2^n`) or are
  `UIntN`/`BitVec`.
* Undefined behaviour and aborts are outcomes: `Res.ub Fault.outOfBounds`, `Fault.assertFail`, `Fault.useAfterFree`,
  `Fault.doubleFree`.  "Memory safe" means that the outcome is never one of them.
* A function that changes a structure through a pointer returns the new structure; a callback is an output of the step;
  its result is an input (`ok` in GMM, SM, SNDCP).
* Stateful layers are `init`/`step` over a type of events that has every request, received message, timer expiry and
  neighbour's answer; properties are about all histories (lists of events) from `init`.
* Where the code violates a property the negation is proved with a concrete witness (`..._violated`), and what does
  hold is proved with the suffix `_partial`.

## Plan per property

For each property: the theorem file(s) under `lean/Verif`, what is modelled and how it is proved or refuted.
"refuted" means that the code does not have the property: the full statement is kept as a `def CnnStatement` (or as
the statement of the `_violated` theorem), its negation is proved with a concrete history or input, and the theorems
with the suffix `_partial` are what does hold.

| id | property | status | theorems in | modelled and how it is proved |
|----|----------|--------|-------------|------------------------------|
| C01 | LLC FCS is the CRC-24 of TS 44.064 | proved | Props/LlcCrc | Llc/Crc: table, octet step, whole FCS. Independent bit-serial CRC-24 as specification; the 256 table entries by kernel evaluation, lifted to all registers by linearity, then induction on the message |
| C02 | FCS rejects every short error burst | proved | Props/LlcCrc | Llc/Crc: the register is linear, one octet step is injective; the difference of two messages that differ by a burst is followed by induction over the common rest |
| C03 | LLC UI frames survive the wire unchanged | proved | Props/LlcPdu | Llc/Pdu: encoder and decoder function by function; round-trip law by case analysis over the header formats |
| C04 | LLC U frames survive the wire unchanged | partial, refuted | Props/LlcPdu | Llc/Pdu: encoder and decoder function by function; round-trip law by case analysis over the header formats |
| C05 | LLC I and S frames survive the wire unchanged | partial, refuted | Props/LlcPdu | Llc/Pdu: encoder and decoder function by function; round-trip law by case analysis over the header formats |
| C06 | LLC decoder is memory safe on hostile input | partial, refuted | Props/LlcPdu | Llc/Pdu: every read and write of the decoder is a checked access; case analysis for all octet strings |
| C07 | LLC XID parameters survive encode/decode | proved | Props/LlcXid | Llc/Xid: coder over field lists, induction over the list; decoder post-condition by induction over the octets |
| C08 | LLC XID decoder only yields valid parameters | proved | Props/LlcXid | Llc/Xid: coder over field lists, induction over the list; decoder post-condition by induction over the octets |
| C09 | Transmitted UI frames carry consecutive N(U) | proved | Props/LlcEntity | Llc/Entity: sender and receiver of UI frames as transition functions; invariants over operation lists, refinement to unbounded counters (Spec/UiLink) |
| C10 | Sender and receiver agree on the UI overflow counter | partial, refuted | Props/LlcEntity | Llc/Entity: sender and receiver of UI frames as transition functions; invariants over operation lists, refinement to unbounded counters (Spec/UiLink) |
| C11 | Duplicate UI frames are not delivered twice | partial, refuted | Props/LlcEntity | Llc/Entity: sender and receiver of UI frames as transition functions; invariants over operation lists, refinement to unbounded counters (Spec/UiLink) |
| C12 | Oversized unitdata is refused, everything else is sent once | proved | Props/LlcEntity | Llc/Entity: sender and receiver of UI frames as transition functions; invariants over operation lists, refinement to unbounded counters (Spec/UiLink) |
| C13 | TLLI lookup follows TLLI assignment | partial, refuted | Props/LlcMgmt | Llc/Entity: the table of TLLI pairs; invariant over histories against a map of assignments |
| C14 | Negotiated XID values stay within their legal ranges | proved | Props/LlcMgmt | Llc/Entity: XID handling; invariant over all messages of the peer |
| C15 | RLC uplink window never exceeds its size | proved | Props/RlcUlWindow | Rlc/WindowUl: window, block states and Ack/Nack handling; refinement to an observer with unbounded block numbers |
| C16 | Uplink blocks leave the window only when acknowledged | proved | Props/RlcUlWindow | Rlc/WindowUl: window, block states and Ack/Nack handling; refinement to an observer with unbounded block numbers |
| C17 | RLC downlink window tracks exactly the received blocks | partial, refuted | Props/RlcDlWindow | Rlc/WindowDl: refinement to an ideal receiver with natural block numbers; negation by a concrete run |
| C18 | ACK/NACK bitmap reports exactly the received blocks | partial, refuted | Props/RlcDlWindow | Rlc/WindowDl: refinement to an ideal receiver with natural block numbers; negation by a concrete run |
| C19 | RLC segmentation and reassembly are inverse | partial, refuted | Props/RlcSegment | Rlc/Enc, Rlc/Dec: segmentation of frames into blocks and parser of length indicators; round trip by induction over frames and blocks, parser against an independent reading of the standard |
| C20 | RLC data block parser stays in bounds | proved | Props/RlcParse | Rlc/Enc, Rlc/Dec: segmentation of frames into blocks and parser of length indicators; round trip by induction over frames and blocks, parser against an independent reading of the standard |
| C21 | Downlink LLC frames are delivered once, in order, uncorrupted | partial, refuted | Props/RlcDelivery | Rlc/TbfDl: window, parser and assembly composed; simulation of the sender's frames over all histories |
| C22 | Network ACK bitmap is applied to the right blocks | proved | Props/RlcUlWindow | Rlc/WindowUl: window, block states and Ack/Nack handling; refinement to an observer with unbounded block numbers |
| C23 | Countdown value announces the end of the uplink TBF | partial, refuted | Props/RlcCountdown | Rlc/Countdown: decision logic and monotony over all histories of one timeslot |
| C24 | LLC queue is FIFO per priority and conserves frames | partial, refuted | Props/RlcLlcQueue | Rlc/LlcQueue: queue with per-priority lists, CoDel and counters; refinement to FIFO lists, use-after-free as an outcome |
| C25 | Queue management drop never hands out freed frames | partial, refuted | Props/RlcLlcQueue | Rlc/LlcQueue: queue with per-priority lists, CoDel and counters; refinement to FIFO lists, use-after-free as an outcome |
| C26 | CoDel control law | proved | Props/RlcCodel | Rlc/Codel: control law with integer square root; invariants over observations |
| C27 | Uplink TBF survives any network behaviour | partial, refuted | Props/RlcUlTbf | Rlc/UlTbf: uplink TBF, assignment state machine, timers, counters and scheduler inputs as one transition function; invariants over all event lists, concrete runs for negations |
| C28 | Uplink access attempts are bounded | partial, refuted | Props/RlcUlTbf | Rlc/UlTbf: uplink TBF, assignment state machine, timers, counters and scheduler inputs as one transition function; invariants over all event lists, concrete runs for negations |
| C29 | Uplink TBF cannot get stuck | partial, refuted | Props/RlcUlTbf | Rlc/UlTbf: uplink TBF, assignment state machine, timers, counters and scheduler inputs as one transition function; invariants over all event lists, concrete runs for negations |
| C30 | Assignment with starting time never aborts | partial, refuted | Props/RlcUlTbf | Rlc/UlTbf: uplink TBF, assignment state machine, timers, counters and scheduler inputs as one transition function; invariants over all event lists, concrete runs for negations |
| C31 | One uplink transmission per RTS, in priority order | partial, refuted | Props/RlcSched | Rlc/Ctx, Spec/Sched: invariant of the context over all histories, case analysis of the scheduler; witness |
| C32 | Poll reservations are exclusive, honoured and do not outlive their owner | partial, refuted | Props/RlcPoll | Rlc/PollTree: reservations in a tree ordered by a cyclic comparison; refinement to a set for every tree shape |
| C33 | Poll frame number from RRBP | proved | Props/RlcFrameNumber | Rlc/FrameNumber: modular arithmetic over all frame numbers |
| C34 | TBF starting time from a relative frame number | proved | Props/RlcFrameNumber | Rlc/FrameNumber: modular arithmetic over all frame numbers |
| C35 | Block size identifies the coding scheme | partial, refuted | Props/RlcCodingScheme | Rlc/CodingScheme: tables evaluated over their whole domain in the kernel |
| C36 | Retransmission coding scheme stays compatible | proved | Props/RlcCodingScheme | Rlc/CodingScheme: tables evaluated over their whole domain in the kernel |
| C37 | Requested octet count covers the queue | partial, refuted | Props/RlcOctetCount | Rlc/OctetCount: induction on the queue |
| C38 | RLC/MAC entities follow TLLI assignment | partial, refuted | Props/RlcDirectory | Rlc/Directory: list of entities with assignment, lookup and creation; invariant over histories against a map |
| C39 | Immediate assignment parsing stays in the message | proved | Props/RlcCcch | Rlc/Ccch: 23-octet messages with every read checked, decoders by C99; case analysis |
| C40 | SNDCP segments fit the link and carry the whole N-PDU | partial, refuted | Props/SndcpSegment | Sndcp/Segment: sender and receiver of SN-UNITDATA segments; induction over the rest of the N-PDU, invariants of the reassembly over all histories |
| C41 | SNDCP reassembly recovers the N-PDU | partial, refuted | Props/SndcpSegment | Sndcp/Segment: sender and receiver of SN-UNITDATA segments; induction over the rest of the N-PDU, invariants of the reassembly over all histories |
| C42 | SNDCP reassembly tolerates reordering | partial, refuted | Props/SndcpSegment | Sndcp/Segment: sender and receiver of SN-UNITDATA segments; induction over the rest of the N-PDU, invariants of the reassembly over all histories |
| C43 | SNDCP never mixes N-PDUs | partial, refuted | Props/SndcpSegment | Sndcp/Segment: sender and receiver of SN-UNITDATA segments; induction over the rest of the N-PDU, invariants of the reassembly over all histories |
| C44 | SNDCP ignores duplicated segments | partial, refuted | Props/SndcpSegment | Sndcp/Segment: sender and receiver of SN-UNITDATA segments; induction over the rest of the N-PDU, invariants of the reassembly over all histories |
| C45 | SNDCP header parsing stays in bounds | partial, refuted | Props/SndcpSegment | Sndcp/Segment: sender and receiver of SN-UNITDATA segments; induction over the rest of the N-PDU, invariants of the reassembly over all histories |
| C46 | SNDCP XID fields survive encode/decode | partial, refuted | Props/SndcpXid | Sndcp/Xid: coder and decoder of XID fields with checked accesses; round trip by induction over components |
| C47 | Peer XID cannot crash SNDCP | partial, refuted | Props/SndcpComp | Sndcp/Xid: coder and decoder of XID fields with checked accesses; round trip by induction over components |
| C48 | Compression entity bookkeeping | partial, refuted | Props/SndcpComp | Sndcp/Comp: lists of compression entities; invariants over histories of arbitrary octets, two-party negotiation |
| C49 | SNDCP entities follow PDP activation | proved | Props/SndcpEntity | Sndcp/Entity: entities by TLLI and NSAPI; refinement to a map over histories |
| C50 | PDP context activation is always answered | partial, refuted | Props/SmEntity | Sm/Entity: state machine, contexts and primitives as one transition function; invariants and observers over all histories |
| C51 | PDP activation retries are bounded | proved | Props/SmEntity | Sm/Entity: state machine, contexts and primitives as one transition function; invariants and observers over all histories |
| C52 | GMM attach and RAU procedures terminate | proved | Props/GmmProc | Gmm/Entity: state machine, messages, timers and primitives as one transition function; invariants and observers over all histories (Gmm/Closed gives the induction principle) |
| C53 | LLC is resumed whenever GMM is registered | partial, refuted | Props/GmmLink | Gmm/Entity: state machine, messages, timers and primitives as one transition function; invariants and observers over all histories (Gmm/Closed gives the induction principle) |
| C54 | P-TMSI signature is stored as received | partial, refuted | Props/GmmSig | Gmm/Entity: state machine, messages, timers and primitives as one transition function; invariants and observers over all histories (Gmm/Closed gives the induction principle) |
| C55 | QoS profile bit rates survive encode/decode | partial, refuted | Props/Qos | Common/Qos: arithmetic of the rate, delay and length coding; whole-range proofs against the tables of the standard (Spec) |
| C56 | QoS profile length is self consistent | partial, refuted | Props/QosProfile | Common/Qos: arithmetic of the rate, delay and length coding; whole-range proofs against the tables of the standard (Spec) |
| C57 | UI data sent in order over a lossless link is delivered once and in order | proved | Props/LlcEntity | Llc/Entity: sender and receiver of UI frames as transition functions; invariants over operation lists, refinement to unbounded counters (Spec/UiLink) |
| C58 | LLC commands and responses are told apart by the peer | partial, refuted | Props/LlcXidExchange | Llc/Entity: two mobile/network roles, decision logic of the C/R bit and of the XID exchange; two-party run for the endless exchange |
| C59 | LL-XID requests reach the peer | partial, refuted | Props/LlcXidExchange | Llc/Entity: two mobile/network roles, decision logic of the C/R bit and of the XID exchange; two-party run for the endless exchange |
| C60 | No LLC request or received frame aborts or reads out of bounds | partial, refuted | Props/LlcPdu, Props/LlcSafe | Llc/Entity: all requests and received frames; absence of the fault outcomes by induction over histories |
| C61 | Downlink data blocks cannot abort the mobile | partial, refuted | Props/RlcDelivery | Rlc/TbfDl: window, parser and assembly composed; simulation of the sender's frames over all histories |
| C62 | An empty LL-PDU is harmless | partial, refuted | Props/RlcLlcQueue | Rlc/LlcQueue: queue with per-priority lists, CoDel and counters; refinement to FIFO lists, use-after-free as an outcome |
| C63 | Configured queue management stays in force | partial, refuted | Props/RlcLlcQueue | Rlc/LlcQueue: queue with per-priority lists, CoDel and counters; refinement to FIFO lists, use-after-free as an outcome |
| C64 | Absolute starting times are decoded exactly | partial, refuted | Props/RlcFrameNumber | Rlc/FrameNumber: modular arithmetic over all frame numbers |
| C65 | Coding scheme arithmetic stays in its family | proved | Props/RlcCodingScheme | Rlc/CodingScheme: tables evaluated over their whole domain in the kernel |
| C66 | Next radio block | proved | Props/RlcUlTbf | Rlc/UlTbf: uplink TBF, assignment state machine, timers, counters and scheduler inputs as one transition function; invariants over all event lists, concrete runs for negations |
| C67 | Contention resolution gives up after N3104 blocks | proved | Props/RlcUlTbf | Rlc/UlTbf: uplink TBF, assignment state machine, timers, counters and scheduler inputs as one transition function; invariants over all event lists, concrete runs for negations |
| C68 | SNDCP N-PDU numbers advance by one | partial, refuted | Props/SndcpSegment | Sndcp/Segment: sender and receiver of SN-UNITDATA segments; induction over the rest of the N-PDU, invariants of the reassembly over all histories |
| C69 | Negotiated compression works | partial, refuted | Props/SndcpComp | Sndcp/Comp: lists of compression entities; invariants over histories of arbitrary octets, two-party negotiation |
| C70 | Both sides agree on compression | partial, refuted | Props/SndcpComp | Sndcp/Comp: lists of compression entities; invariants over histories of arbitrary octets, two-party negotiation |
| C71 | SNDCP answers the NSAPI that asked | partial, refuted | Props/SndcpEntity | Sndcp/Entity: entities by TLLI and NSAPI; refinement to a map over histories |
| C72 | SNDCP activation uses the SAPI asked for | partial, refuted | Props/SndcpEntity | Sndcp/Entity: entities by TLLI and NSAPI; refinement to a map over histories |
| C73 | QoS bit rates are decoded as the standard says | partial, refuted | Props/Qos | Common/Qos: arithmetic of the rate, delay and length coding; whole-range proofs against the tables of the standard (Spec) |
| C74 | QoS transfer delay survives coding | partial, refuted | Props/Qos | Common/Qos: arithmetic of the rate, delay and length coding; whole-range proofs against the tables of the standard (Spec) |
| C75 | QoS extension octets are where the standard puts them | partial, refuted | Props/QosProfile | Common/Qos: arithmetic of the rate, delay and length coding; whole-range proofs against the tables of the standard (Spec) |
| C76 | PDP addresses survive coding | partial, refuted | Props/SmPdu | Sm/Pdu: coder and decoder with checked accesses, against an independent reading of the message layout |
| C77 | Decoding SM messages stays inside the message | partial, refuted | Props/SmPdu | Sm/Pdu: coder and decoder with checked accesses, against an independent reading of the message layout |
| C78 | ACTIVATE PDP CONTEXT REQUEST says what the user asked for | proved | Props/SmData, Props/SmPdu | Sm/Pdu: coder and decoder with checked accesses, against an independent reading of the message layout |
| C79 | The user is told what the network granted | partial, refuted | Props/SmData | Sm/Entity: state machine, contexts and primitives as one transition function; invariants and observers over all histories |
| C80 | A refused SM message changes nothing | partial, refuted | Props/SmData | Sm/Entity: state machine, contexts and primitives as one transition function; invariants and observers over all histories |
| C81 | SM messages carry the identifiers of their context | partial, refuted | Props/SmData | Sm/Entity: state machine, contexts and primitives as one transition function; invariants and observers over all histories |
| C82 | PDP context status deactivates exactly the right contexts | proved | Props/SmData | Sm/Entity: state machine, contexts and primitives as one transition function; invariants and observers over all histories |
| C83 | The end of an active PDP context is announced | partial, refuted | Props/SmData | Sm/Entity: state machine, contexts and primitives as one transition function; invariants and observers over all histories |
| C84 | The SM layer survives every history | partial, refuted | Props/SmData | Sm/Entity: state machine, contexts and primitives as one transition function; invariants and observers over all histories |
| C85 | GPRS timer values survive coding | proved | Props/GmmTimer | Gmm/Timer: whole range of the timer octet against the standard's units, rounding over all durations |
| C86 | GMM procedures are tried five times | partial, refuted | Props/GmmProc | Gmm/Entity: state machine, messages, timers and primitives as one transition function; invariants and observers over all histories (Gmm/Closed gives the induction principle) |
| C87 | GMM requests are answered once | partial, refuted | Props/GmmAnswer | Gmm/Entity: state machine, messages, timers and primitives as one transition function; invariants and observers over all histories (Gmm/Closed gives the induction principle) |
| C88 | GMM confirmations are truthful | partial, refuted | Props/GmmAnswer | Gmm/Entity: state machine, messages, timers and primitives as one transition function; invariants and observers over all histories (Gmm/Closed gives the induction principle) |
| C89 | GMM requests say what was meant | partial, refuted | Props/GmmPdu | Gmm/Pdu: message builders against an independent reading of the message layout |
| C90 | GMM tells the network the radio capability | partial, refuted | Props/GmmPdu | Gmm/Pdu: message builders against an independent reading of the message layout |
| C91 | Identity requests are answered with the right identity | proved | Props/GmmPdu | Gmm/Pdu: message builders against an independent reading of the message layout |
| C92 | GMM's READY and periodic update timers cover a registered mobile station | partial, refuted | Props/GmmTimers | Gmm/Entity: state machine, messages, timers and primitives as one transition function; invariants and observers over all histories (Gmm/Closed gives the induction principle) |
| C93 | Detaching is confirmed only when it was asked for | partial, refuted | Props/GmmDetach | Gmm/Entity: state machine, messages, timers and primitives as one transition function; invariants and observers over all histories (Gmm/Closed gives the induction principle) |
| C94 | Detaching ends | partial, refuted | Props/GmmDetach | Gmm/Entity: state machine, messages, timers and primitives as one transition function; invariants and observers over all histories (Gmm/Closed gives the induction principle) |
| C95 | Disabling GPRS switches GMM off | partial, refuted | Props/GmmDetach | Gmm/Entity: state machine, messages, timers and primitives as one transition function; invariants and observers over all histories (Gmm/Closed gives the induction principle) |
| C96 | An accepted mobile station becomes registered | partial, refuted | Props/GmmStack | Gmm/Stack: GMM over the RLC/MAC directory with the primitives passed through; induction over attempts |
| C97 | A detached mobile station leaves nothing behind in RLC/MAC | partial, refuted | Props/GmmTlli | Gmm/Stack: GMM over the RLC/MAC directory with the primitives passed through; induction over attempts |
| C98 | GMM messages are sent under a valid TLLI | partial, refuted | Props/GmmTlli | Gmm/Entity: state machine, messages, timers and primitives as one transition function; invariants and observers over all histories (Gmm/Closed gives the induction principle) |
| C99 | Decoding a message keeps to the result structure | proved | Props/CsnConfine | Csn1: interpreter of descriptor tables over a memory image, all tables generated into Csn1/Tables; a static check of tables is proved sound once, then evaluated in the kernel on every table |
| C100 | Decoding a field never overwrites another field | partial, refuted | Props/CsnConfine | Csn1: interpreter of descriptor tables over a memory image, all tables generated into Csn1/Tables; a static check of tables is proved sound once, then evaluated in the kernel on every table |
| C101 | System information 13 never aborts the process | partial, refuted | Props/CsnSi13 | Csn1/Si13: system information 13 through the decoder; symbolic stepping of the interpreter |
| C102 | Timers follow system information 13 | partial, refuted | Props/CsnSi13 | Csn1/Si13: system information 13 through the decoder; symbolic stepping of the interpreter |
| C103 | The SIM's answer is used only for the challenge in force | partial, refuted | Props/GmmAuth | Gmm/Entity: observer of challenges over all histories; frame lemma from Gmm/Closed for the events in between |
| C104 | A challenge passed to the SIM is answered to the network | partial, refuted | Props/GmmAuth | Gmm/Entity: observer of challenges over all histories; frame lemma from Gmm/Closed for the events in between |
| C105 | Session management is told once when its registration is gone | partial, refuted | Props/GmmRelease | Gmm/Entity: per-event equation for release indications, session tracked over the history |
| C106 | Pages reach exactly the mobile stations named | partial, refuted | Props/RlcCcch | Rlc/Ccch and Spec/Ccch: paging requests built by a specification; forward stepping of the decoder over the rest octets |
| C107 | Immediate assignments for others have no effect | partial, refuted | Props/RlcImmAss | Rlc/Ccch: witness; result independent of the request reference; induction over the entity list |
| C108 | Immediate assignments are obeyed as sent | proved | Props/RlcImmAss | Rlc/Ccch, Csn1/IaLemmas: symbolic stepping of the decoder from accepted rest octets to the fields of the standard |
| C109 | No message on the CCCH aborts the process | partial, refuted | Props/RlcImmAss | Rlc/Ccch: 23-octet messages with every read checked, decoders by C99; case analysis |
| C110 | The packet data machinery never aborts or touches freed memory | partial, refuted | Props/RlcSched | Rlc/Ctx, Rlc/CtxSafe: invariant with the uplink machine of C27 over all histories; witnesses |
| C111 | A poll is answered in the reserved block with what was asked for | partial, refuted | Props/RlcCtx, Props/RlcSched | Rlc/Ctx, Spec/Sched: invariant of reservations over all histories, case analysis; witness |
| C112 | Reserved polls belong to somebody who is still there | partial, refuted | Props/RlcCtx, Props/RlcSched | Rlc/Ctx, Rlc/CtxStep: invariant over all histories; witness |
| C113 | A downlink TBF begins at its starting time | partial, refuted | Props/RlcCtx | Rlc/CtxEvents, Rlc/CtxKeeps: what each event leaves of a downlink assignment, induction over quiet histories; Spec/CtxMsg; witness |
| C114 | A downlink TBF begins with the resources assigned | partial, refuted | Props/RlcCtx | Rlc/CtxEvents, Rlc/CtxKeeps: what each event leaves of a downlink assignment, induction over quiet histories; Spec/CtxMsg; witness |
| C115 | The packet channel is released when, and only when, nothing uses it | partial, refuted | Props/RlcCtx | Rlc/CtxMoves, Rlc/CtxKeeps: the idle timer over all histories; witnesses |
| C116 | Messages reach only the mobile station they are addressed to | partial, refuted | Props/RlcCtx | Rlc/CtxEvents: each event changes one entity at most, found by identity; Spec/CtxMsg; witnesses |
| C117 | Entities do not disturb each other | proved | Props/RlcCtx | Rlc/CtxEvents: each event changes one entity at most, found by identity; Spec/CtxMsg; witnesses |
| C118 | Encoding a control message gives exactly its bits | partial, refuted | Props/CsnEnc | Csn1/Enc: encoder; Spec/CsnLayout, Spec/CsnMsg: the parts of a message listed from its table; Csn1/LayEnc: mutual induction over tables; Csn1/LayMsg: padding; witnesses |
| C119 | What is encoded can be decoded to the same message | partial, refuted | Props/CsnEnc | Csn1/LayDec, Csn1/LayEnc: decoder and encoder follow the same layout, by mutual induction over tables; Csn1/LayMsg: headers; witness |
| C120 | The messages sent have the bits the standard prescribes | proved | Props/CsnEnc | Csn1/Sent: the prepare functions; Spec/CsnSent: bits in the order of the standard; Csn1/SentLemmas |
| C121 | Every uplink message type can be encoded without undefined behaviour | partial, refuted | Props/CsnEnc | Csn1/Enc: encoder; Spec/CsnLayout, Spec/CsnMsg: the parts of a message listed from its table; Csn1/LayEnc: mutual induction over tables; Csn1/LayMsg: padding; witnesses |
| C122 | Every conforming downlink message is understood | proved | Props/CsnEnc | Csn1/LayDec, Csn1/LayEnc: decoder and encoder follow the same layout, by mutual induction over tables; Csn1/LayMsg: headers; witness |
| C123 | Assignments and acknowledgements received mean what the network sent | proved | Props/CsnRecv | Csn1/Recv: the handlers' reading of the decoded structure; Spec/CsnRecv: bits in the order of the standard; Csn1/RecvRules, RecvLemmas, RecvMsgs: the layout of each message; Csn1/RecvRead |
| C124 | Contention resolution succeeds only with the station's own TLLI | partial, refuted | Props/CsnTaken | C123 with the context model (Rlc/CtxEvents); witness |
| C125 | Control messages that are not understood have no effect | partial, refuted | Props/CsnTaken | Csn1/Step: the message type is decoded first and never overwritten; C100; witnesses |
| C126 | A packet compressed with V.42bis is expanded to the same packet | proved | Props/SndcpV42 | Sndcp/V42bis: both directions of the code; V42Bits: the bit stream; V42Dict: the dictionary as a forest with lists of children; V42Sim, V42Enc, V42Dec: the expander follows the compressor, by induction over the packet |
| C127 | Expanding arbitrary octets with V.42bis is memory safe and ends | partial, refuted | Props/SndcpV42 | Sndcp/V42Safe: invariant of the expander with the depth of each entry; witness |
| C128 | An expanded packet fits into the buffer for it | partial, refuted | Props/SndcpV42 | C126; witness by evaluation in the kernel |
| C129 | TCP/IP header compression gives back every packet | partial, refuted | Props/SndcpSlhc | Model of slhc_compress with the ring of slots and of slhc_uncompress and slhc_remember on octets, with checksum. Invariant: the ring visits all slots, each used slot holds a header of its connection; for the slots known to the receiver both sides hold the same header. Step lemma: what is sent for a packet (plain, full or the list of changes) rebuilds the packet in any receiver that knows the slot. Induction over the packets (and losses). |
| C130 | Loss of a packet harms only its own slot, until the next full header | partial, refuted | Props/SndcpSlhc | Model of slhc_compress with the ring of slots and of slhc_uncompress and slhc_remember on octets, with checksum. Invariant: the ring visits all slots, each used slot holds a header of its connection; for the slots known to the receiver both sides hold the same header. Step lemma: what is sent for a packet (plain, full or the list of changes) rebuilds the packet in any receiver that knows the slot. Induction over the packets (and losses). |
| C131 | Compression of headers is safe for all packets | partial, refuted | Props/SndcpSlhc | Invariant of the ring and of the receiver's current slot; every read and write is checked in the model; induction over the sequence of packets. |
| C132 | Expansion of headers is safe for all received packets | partial, refuted | Props/SndcpSlhc | Invariant of the ring and of the receiver's current slot; every read and write is checked in the model; induction over the sequence of packets. |
| C133 | Compressed packets of a slot without a header are discarded | partial, refuted | Props/SndcpSlhc | The receiver's flag for discarding and the checks of slot numbers, after every history. |
| C134 | After a refused packet, compressed packets without a slot number are discarded | partial, refuted | Props/SndcpSlhc | The receiver's flag for discarding and the checks of slot numbers, after every history. |
| C135 | Header compression can be used with every negotiated number of slots | partial, refuted | Props/SndcpSlhc | The receiver's flag for discarding and the checks of slot numbers, after every history. |
| C136 | The payloads of a radio block lie where the standard puts them and survive being written and read | proved | Props/RlcEgprs | Rlc/EgprsBits: what the two shifting loops do to each bit, by induction over the octets |
| C137 | The header of an EGPRS block tells how every payload was coded and punctured | proved | Props/RlcEgprs | Rlc/EgprsTx: invariant of a block (scheme, puncturing scheme, half sent) over all histories of transmissions, and of the list of transmissions; the tables are finite |
| C138 | Length indicators of EGPRS blocks are read as the standard defines, and nothing outside the block | proved | Props/RlcEgprs | Refinement of the parser loop to a recursive specification, by induction over the indicators; layout as for GPRS |
| C139 | Retransmissions of EGPRS blocks use the puncturing schemes of the standard | partial, refuted | Props/RlcEgprs | Rlc/EgprsTx: invariant of a block (scheme, puncturing scheme, half sent) over all histories of transmissions, and of the list of transmissions; the tables are finite |
| C140 | Resegmented EGPRS blocks carry every octet of the payload, in order | partial, refuted | Props/RlcEgprs | Rlc/EgprsTx: invariant of a block (scheme, puncturing scheme, half sent) over all histories of transmissions, and of the list of transmissions; the tables are finite |
| C141 | A primitive handed to the library is freed exactly once | partial, refuted | Props/PrimOwn | Prim/Own: what each dispatcher and handler does with the message buffer; case analysis over all headers (SAP and type are any numbers) against an explicit list of exceptions in Spec/PrimOwn |
| C142 | A callback that returns 1 keeps the primitive | partial, refuted | Props/PrimOwn | Prim/Own: what each dispatcher and handler does with the message buffer; case analysis over all headers (SAP and type are any numbers) against an explicit list of exceptions in Spec/PrimOwn |
| C143 | Packets to the mobile station arrive unchanged and in order over a lossy radio link | partial, refuted | Props/EndToEnd | Composition: Spec/EndToEnd chains the models of SNDCP, LLC and RLC; the proofs combine the theorems for each layer, induction over the list of TBFs, and prefix lemmas for LLC and SNDCP |
| C144 | Packets from the mobile station arrive unchanged and in order | partial, refuted | Props/EndToEnd | Composition: Spec/EndToEnd chains the models of SNDCP, LLC and RLC; the proofs combine the theorems for each layer, induction over the list of TBFs, and prefix lemmas for LLC and SNDCP |
| C145 | Acknowledged uplink transfer is reliable over a lossy link | proved | Props/UlLink | Rlc/UlTx: window, block store and LLC data together; Spec/UlLink: receiver of TS 44.060 and first-in-first-out links with losses; joint invariant (numbers of the blocks under way, snapshots behind the reports under way) by induction over histories; well-founded measure for completion; composition with Spec/EndToEnd |
| C146 | An uplink transfer comes to its end once the link is good | proved | Props/UlLink | Rlc/UlTx: window, block store and LLC data together; Spec/UlLink: receiver of TS 44.060 and first-in-first-out links with losses; joint invariant (numbers of the blocks under way, snapshots behind the reports under way) by induction over histories; well-founded measure for completion; composition with Spec/EndToEnd |
| C147 | Packets survive the whole stack over a lossy uplink | partial, refuted | Props/EndToEndLossy | Rlc/UlTx: window, block store and LLC data together; Spec/UlLink: receiver of TS 44.060 and first-in-first-out links with losses; joint invariant (numbers of the blocks under way, snapshots behind the reports under way) by induction over histories; well-founded measure for completion; composition with Spec/EndToEnd |
| C148 | Frames given at any time arrive through one uplink TBF after the other | partial, refuted | Props/UlSession | Rlc/UlSender: UlTx with countdown, coding scheme commands and contention resolution; simulation by the transfers of Spec/UlLink with the right countdown value (C23's invariant), which discharges the hypothesis of C146; composition with C145 to C147; verified checker for concrete sessions |
| C149 | Packets sent at any time over a lossy uplink are delivered | partial, refuted | Props/UlSession | Rlc/UlSender: UlTx with countdown, coding scheme commands and contention resolution; simulation by the transfers of Spec/UlLink with the right countdown value (C23's invariant), which discharges the hypothesis of C146; composition with C145 to C147; verified checker for concrete sessions |
| C150 | A downlink transfer over a lossy link is reliable | proved | Props/DlLink | Rlc/DlRx: receiving TBF with its state machine and reports; Spec/DlLink: sender of TS 44.060 and first-in-first-out links with losses; joint invariant with snapshots behind the reports under way, by induction over histories; measure for completion; the deadlock as an invariant of all later rounds |
| C151 | A downlink transfer comes to its end | partial, refuted | Props/DlLink | Rlc/DlRx: receiving TBF with its state machine and reports; Spec/DlLink: sender of TS 44.060 and first-in-first-out links with losses; joint invariant with snapshots behind the reports under way, by induction over histories; measure for completion; the deadlock as an invariant of all later rounds |
| C152 | Packets over a lossy downlink are delivered | proved | Props/DlLinkPackets | Composition of C150 with Spec/EndToEnd; verified checker for a concrete transfer |
| C153 | A request to go to standby is honoured | partial, refuted | Props/GmmNet | Spec/GmmNet: the messages of the network by the tables of TS 24.008; case analysis over the handlers of Gmm/Entity for all contents; the violated cases for every mobile station |
| C154 | The network can reallocate the P-TMSI, with or without a signature | partial, refuted | Props/GmmNet | Spec/GmmNet: the messages of the network by the tables of TS 24.008; case analysis over the handlers of Gmm/Entity for all contents; the violated cases for every mobile station |
| C155 | An authentication request is answered with an authentication message | partial, refuted | Props/GmmRefuse | Case analysis over the handlers of Gmm/Entity for all octet strings, neighbours and entities; witnesses in reachable states |
| C156 | An acceptance nobody asked for is ignored | partial, refuted | Props/GmmRefuse | Case analysis over the handlers of Gmm/Entity for all octet strings, neighbours and entities; witnesses in reachable states |
| C157 | A message that is refused changes nothing | partial, refuted | Props/GmmRefuse, Props/GmmRefuseKeep | Case analysis over the handlers of Gmm/Entity for all octet strings, neighbours and entities; witnesses in reachable states |
| C158 | Mobile stations do not disturb each other | proved | Props/GmmLayer | `Gmm/Layer.lean`: the list of GMM entities, the lookups and the creation of entities. By induction over histories of the layer: the IMSIs differ and each entity's share of the history is a history of `Gmm/Entity.lean` (C158), its TLLIs come from its P-TMSIs or are random (C160), its state fits the switch (C161); C159 by what a search finds. Refuted by concrete histories with two stations. |
| C159 | A primitive reaches the mobile station it is for | partial, refuted | Props/GmmLayer | `Gmm/Layer.lean`: the list of GMM entities, the lookups and the creation of entities. By induction over histories of the layer: the IMSIs differ and each entity's share of the history is a history of `Gmm/Entity.lean` (C158), its TLLIs come from its P-TMSIs or are random (C160), its state fits the switch (C161); C159 by what a search finds. Refuted by concrete histories with two stations. |
| C160 | A new mobile station has a TLLI of its own | proved | Props/GmmLayer | `Gmm/Layer.lean`: the list of GMM entities, the lookups and the creation of entities. By induction over histories of the layer: the IMSIs differ and each entity's share of the history is a history of `Gmm/Entity.lean` (C158), its TLLIs come from its P-TMSIs or are random (C160), its state fits the switch (C161); C159 by what a search finds. Refuted by concrete histories with two stations. |
| C161 | GPRS can be switched on and off | partial, refuted | Props/GmmEnable | `Gmm/Layer.lean`: the list of GMM entities, the lookups and the creation of entities. By induction over histories of the layer: the IMSIs differ and each entity's share of the history is a history of `Gmm/Entity.lean` (C158), its TLLIs come from its P-TMSIs or are random (C160), its state fits the switch (C161); C159 by what a search finds. Refuted by concrete histories with two stations. |
| C162 | A mobile station that the network accepts becomes registered, also when it has been attached before | partial, refuted | Props/GmmOverLlc | The GMM entity (Verif/Gmm/Entity) and the LLC context (Verif/Llc/Entity) as one state (Verif/Gmm/OverLlc): every primitive GMM hands to LLC is executed by LLC and its return value is the answer GMM gets; messages reach GMM only in LL-PDUs that LLC accepts. Invariant: which TLLIs LLC has entities for, through every LLC operation. Refuted by a computed history with real LL-PDUs. |
| C163 | A PDP context can be activated end to end | partial, refuted | Props/SmOverGmm | SM (Verif/Sm/Entity) and GMM (Verif/Gmm/Layer) as one state (Verif/Sm/OverGmm): each GMMSM primitive is executed by the other layer and its result is the answer. C163 by symbolic execution of the whole procedure for all parameters; C164 by an invariant over histories of both layers, with the lemma that GMM's own messages have protocol discriminator 8 (Props/GmmOwn); C165 by following GMMSM-RELEASE.ind through everything GMM hands out during the event. Refuted by computed histories. |
| C164 | A mobile station sends activation requests for its own PDP contexts only | partial, refuted | Props/SmReach | SM (Verif/Sm/Entity) and GMM (Verif/Gmm/Layer) as one state (Verif/Sm/OverGmm): each GMMSM primitive is executed by the other layer and its result is the answer. C163 by symbolic execution of the whole procedure for all parameters; C164 by an invariant over histories of both layers, with the lemma that GMM's own messages have protocol discriminator 8 (Props/GmmOwn); C165 by following GMMSM-RELEASE.ind through everything GMM hands out during the event. Refuted by computed histories. |
| C165 | PDP contexts end with the registration | partial, refuted | Props/SmReach | SM (Verif/Sm/Entity) and GMM (Verif/Gmm/Layer) as one state (Verif/Sm/OverGmm): each GMMSM primitive is executed by the other layer and its result is the answer. C163 by symbolic execution of the whole procedure for all parameters; C164 by an invariant over histories of both layers, with the lemma that GMM's own messages have protocol discriminator 8 (Props/GmmOwn); C165 by following GMMSM-RELEASE.ind through everything GMM hands out during the event. Refuted by computed histories. |
| C166 | A PDP context reported active carries packets | partial, refuted | Props/Phone | SM, GMM (Verif/Sm/OverGmm) and SNDCP (Verif/Sndcp/Entity) as one state (Verif/Sm/Phone): SNSM primitives and LLC's news of a new TLLI are executed by the other layer at once. C166 by an invariant over histories that follows every SMREG-PDP_ACT.cnf back to SNDCP's answer; C167 by induction over the list of contexts the network calls inactive; C168 by symbolic execution of the whole procedure for all parameters. Refuted by computed histories. |
| C167 | A PDP context that has ended carries no packets | partial, refuted | Props/PhoneEnd | SM, GMM (Verif/Sm/OverGmm) and SNDCP (Verif/Sndcp/Entity) as one state (Verif/Sm/Phone): SNSM primitives and LLC's news of a new TLLI are executed by the other layer at once. C166 by an invariant over histories that follows every SMREG-PDP_ACT.cnf back to SNDCP's answer; C167 by induction over the list of contexts the network calls inactive; C168 by symbolic execution of the whole procedure for all parameters. Refuted by computed histories. |
| C168 | An activation the network accepts is reported to the user | partial, refuted | Props/Phone | SM, GMM (Verif/Sm/OverGmm) and SNDCP (Verif/Sndcp/Entity) as one state (Verif/Sm/Phone): SNSM primitives and LLC's news of a new TLLI are executed by the other layer at once. C166 by an invariant over histories that follows every SMREG-PDP_ACT.cnf back to SNDCP's answer; C167 by induction over the list of contexts the network calls inactive; C168 by symbolic execution of the whole procedure for all parameters. Refuted by computed histories. |
| C169 | From switching on to packets in both directions | partial, refuted | Props/Device | Sm/Device puts the LLC model below Sm/Phone: the primitives GMM hands out are executed in order, and LL-PDUs of the network go through LLC first. `ph_activation` gives the three events of the upper layers explicitly; `llc_first`, `llc_tx`, `llc_rx` and `llc_assign` follow the one LLC entity through them; the final state meets `Path.Ready` in both directions, so `upper_path` (C143, C144) applies. The refutation evaluates one request of 405 octets. |
| C170 | A packet the peer compressed as agreed is handed up as it was | partial, refuted | Props/SndcpPackets | The negotiation (C48), V.42bis (C126) and the reassembly model together. The refutation takes 800 equal octets, which are compressed to 70. The proved part is a simulation: two histories of SN-PDUs that differ in the compression values only, from states that differ in the stored values only, hand up the same; the sender by induction on the fragments. |
| C171 | Received data blocks are taken for what was sent | proved | Props/RlcWire | Rlc/Wire reads the octets of a received block as the code does, size first. The block of the specification is laid out in arithmetic; each field is recovered by `omega` after splitting on the four sizes. The converse splits on the size and the payload type. The transfers are those of C150 and C151. |
| C172 | Sent data blocks are what the network reads | partial, refuted | Props/RlcWireUl | The payload keeps its length by induction over the loop that fills it, so that all blocks of a transfer have the length of the coding scheme; the number comes from the invariant of C145. The octets are laid out once for the four sizes and read back by `omega`. The refutation runs 64 blocks and uses the general theorem for the block after them. |
| C173 | Uplink data blocks are read as what they consist of | partial, refuted | Props/RlcData | Rlc/DataApi reads the bit vector octet by octet, entries of the arrays checked. Round trip: the chain by induction, the rest by arithmetic on the octets. Without harm: induction over the chain gives how many octets it takes. The refutation evaluates a block for six frames of one octet. |
| C174 | Downlink data blocks put into octets for a user are received as the user said | proved | Props/RlcData | The octets written are shown to be the block of the specification (`dlAir`) with the length indicators by induction; C171 says how it is received. |
| C175 | EGPRS packet channel requests are told as what they are | proved | Props/ChReq | The decoder of C122 with the table of the request. Fields of the bit string are arithmetic on the number; the alternatives are taken one by one. |
| C176 | A downlink control message is encoded to its header, its parts in order and padding | partial, refuted | Props/CsnEncDl | Csn1/EncDl models the header and uses the encoder of C118; the header is written as parts with constant values, so that the lemma on parts (LayEnc) covers both. |
| C177 | A downlink control message that was encoded is received as what it is | partial, refuted | Props/CsnEncDl | The header is read back field by field (LayDl), the message by the lemma on decoding parts (LayDec). Refutations evaluate a PSI13 and a paging request. |
| C178 | Encoding a downlink control message has no undefined behaviour | partial, refuted | Props/CsnEncDl | From C176; the refutation evaluates a handover command. |
| C179 | Every XID command of the peer takes effect and is reported | proved | Props/LlcXidUse | Decoding the payload is C07; the loop over the parameters is an induction on the list with each type once; the frame sent back is written out in octets. |
| C180 | The size the peer agreed to is obeyed | partial, refuted | Props/LlcXidUse | From C179 for commands; the refutation evaluates a response with N201-U of 200 and a request of 300 octets. |
| C181 | Every LLC parameter in use was given by the standard or by the peer | proved | Props/LlcGiven | An invariant over all histories (Props/LlcGiven), with the table of Spec/LlcTable9, written row by row, as default. |
| C182 | Every downlink TBF is supervised by a running timer | proved | Props/DlLife | Induction over histories, with the relation of Spec/DlLife for single steps (C183). |
| C183 | Downlink TBFs begin, change and end only as specified | proved | Props/DlLife | Case analysis of every event (Rlc/DlLife): which functions keep every downlink TBF, and what the others do to the one of their entity. |
| C184 | An MS radio access capability is written exactly as its fields say | partial, refuted | Props/RaCap | The table of the content is shown to stand for the fields of Spec/RaCap one by one (Csn1/RaLay), the list by induction (Csn1/RaEnc); the lemma on encoding parts (LayEnc) gives the bits. The refutation evaluates one entry in the short form. |
| C185 | Radio access capabilities of older and newer releases are understood | proved | Props/RaCap | Csn1/RaDec: each field is decoded from its bits or set to zero when none are left; induction over the fields and over the entries, each within its length. |
| C186 | A radio access capability that does not fit its buffer is refused, and others are read back | partial, refuted | Props/RaCap | Csn1/RaShort: what each line leaves when it does not fit, composed over the table: a field skipped leaves fewer bits than the fields behind it use up, so nothing is left for the bit behind the entry. Reading back by the lemmas on parts. |
| C187 | A standing queue is shortened in time | proved | Props/RlcCodelStart | Induction over the late packets: as long as none is dropped, the time of the first of them stays stored; induction over histories without drops. |
| C188 | Ciphering that was agreed is used | partial, refuted | Props/LlcCiph | From C12: the frame for every request in every reachable state is known octet by octet. Reception by case analysis. |
| C189 | Every PDP context a user asks for is requested from the network | partial, refuted | Props/SmMany | SM and GMM composed, one mobile station. Invariant by induction over histories: every PDP context is of this mobile station, its session was given out before, and the one whose session has the number of the mobile station is at one NSAPI; GMM confirms a registration under the session it has then, and passes on a message only to an entity with the session named. The refuting history is evaluated by the kernel. |
| C190 | A PDP context is reported active only if it was requested from the network | partial, refuted | Props/SmTold | SM and GMM composed. A general lemma: what every step of SM keeps and hands out because of an event from outside, whatever GMM does in between. With it by induction over histories: SNDCP is asked only because of an ACCEPT, the user is told only because of SNDCP, and only about contexts they asked for. The refuting history and the fairness of its neighbours are evaluated by the kernel. |
| C191 | Optional elements the library makes no use of do not make an accept be refused | partial, refuted | Props/GmmUnknownIe | Prefix property of the element parser by induction over its fuel: the elements of a message are found again when octets are added, and one more element of type 4 is appended or makes the parser fail according to the table. The handlers read other elements, at positions in the old message. The refuting message is evaluated by the kernel. |
| C192 | Optional elements the library makes no use of do not make the answer to a PDP context request be refused | partial, refuted | Props/SmUnknownIe | With the prefix property of the element parser (C191): fixed part, PDP address and configuration options are read at the same positions with the same result; the added element is appended or makes the parser fail. The refuting message is evaluated by the kernel. |
| C193 | The PDP context status reported is that of the message received | partial, refuted | Props/GmmStale | Every element found was read at its identifier, by induction over the parser; the status stored is the value behind it. The report is the only one of its kind among the primitives handed out. The refuting histories are evaluated by the kernel. |
| C194 | An uplink EGPRS block says which LLC data it carries | partial, refuted | Props/RlcEgprsFill | The invariant of the GPRS encoder (buffer after each frame) up to the first frame, then the insertion of the octet for filling computed on lists; the reading follows from the value of the length octet, by cases on whether twice the length fits. |
| C195 | The READY timer is the one the network assigned | partial, refuted | Props/GmmReady | The handlers are reduced to the point where the value is known (for any octets in the message); the events for accepts change no timer; cases on the value and the running timers. The refuting histories are evaluated by the kernel. |
| C196 | The uplink window tells truly which blocks are not acknowledged | proved | Props/RlcWindowShow | The loops by induction over the distance to V(S), with the invariant of C15 and C16 that relates the array to the observer's notes. |
| C197 | The EGPRS bitmap reports exactly the received blocks | partial, refuted | Props/RlcWindowShow | With the invariant of C17; the loop by induction as long as the numbers do not wrap. The refuting history is shown to respect the window for every prefix, and evaluated by the kernel. |
| C198 | A mobile station the network has turned away does not come back at once | partial, refuted | Props/GmmRejected | Gmm/Entity: the parser lemma of C191 for the optional timer, the transition of the state machine, and induction over histories of timer expiries; witness a mobile station that has asked to be attached |
| C199 | The network can detach a mobile station | partial, refuted | Props/GmmNetDetach | Gmm/Entity: the handler of an unknown message type, the shape of all handlers (a change of data, then at most one event of the state machine) and the masks of the state machine; witnesses in reachable states |
| C200 | The network can deactivate a PDP context | partial, refuted | Props/SmNetDeact | Sm/Entity: the handler of an unknown message type; C83 for all messages; the lemma of C82 on the PDP context status and the transition of the state machine. The witness is the history of C50, evaluated by the kernel. |
| C201 | The user learns that the registration has ended | partial, refuted | Props/GmmSilentEnd | Gmm/Entity: cases on the event, with the shape of all handlers of messages (C199) and the transitions of the state machine. The witness is a mobile station that updates its routing area, evaluated by the kernel. |

## Disagreements

Where the code at the pinned commit does not have a property a user relies on. Each item names the theorem that
proves it of the model; nothing was repaired in the model.

* **C04 LLC U frames survive the wire unchanged.** False of the code for unprotected U frames of more than 7 octets; negation proved. (`c04_u_roundtrip_violated`)
* **C05 LLC I and S frames survive the wire unchanged.** False of the code for SACK, RNR and the A bit of S frames; negations proved. (`c05_violated_sack`, `c05_violated_rnr`, `c05_violated_ack_req`)
* **C06 LLC decoder is memory safe on hostile input.** False of the code for two frame shapes; negations proved. (`c06_violated_overflow`, `c06_violated_underflow`, `c06_decoder_safe_violated`)
* **C10 Sender and receiver agree on the UI overflow counter.** False of the code for every 512th frame; negation proved, and the exact set of frames where it holds. (`c10_oc_agree_violated`)
* **C11 Duplicate UI frames are not delivered twice.** False of the code: the first duplicate is delivered; negation proved. (`c11_no_duplicates_violated`)
* **C13 TLLI lookup follows TLLI assignment.** Proved for histories that do not give one TLLI to two entities and do not use the unassigned value as address; for those it is false (negations proved). (`c13_violated_unassigned`, `c13_violated_collision`)
* **C17 RLC downlink window tracks exactly the received blocks.** Proved when no gap of a full window is open; false of the code otherwise: V(Q)=V(R) mod 128 is read as an empty window and the TBF stops taking blocks out for ever (negation and deadlock proved). (`c17_dl_window_exact_violated`, `c17_dl_window_deadlock_violated`)
* **C18 ACK/NACK bitmap reports exactly the received blocks.** No block that was not received is ever reported received (proved unconditionally); exactness proved under the same condition as C17, negation proved otherwise. (`c18_ack_bitmap_exact_violated`)
* **C19 RLC segmentation and reassembly are inverse.** Proved except when the last frame exactly fills the rest of the last block behind another frame; there the more bit stays 0 and the frame is lost (negation proved). (`c19_segmentation_inverse_violated`)
* **C21 Downlink LLC frames are delivered once, in order, uncorrupted.** Order, exactly-once and integrity proved for every history; completeness proved when no gap of a full window is open and false of the code otherwise (negation proved). (`c21_all_delivered_violated`)
* **C23 Countdown value announces the end of the uplink TBF.** Proved for one timeslot and every history; false of the code with two timeslots (negation proved). (`c23_countdown_value_violated`)
* **C24 LLC queue is FIFO per priority and conserves frames.** Conservation, counters and priority proved for every history; order proved unless a TBF is freed during its countdown with several frames of one class left, for which it is false of the code (negation proved). (`c24_fifo_violated`)
* **C25 Queue management drop never hands out freed frames.** Proved with CoDel off; false of the code with CoDel on: the dropped frame is used after it was freed (negation proved). (`c25_dequeue_safe_violated`)
* **C27 Uplink TBF survives any network behaviour.** False of the code in four ways (witnesses proved); proved for all other event sequences. (`c27_violated`, `c27_early_ack_violated`, `c27_n3104_violated`, `c27_starting_time_violated`, `c27_wraparound_violated`)
* **C28 Uplink access attempts are bounded.** Accesses caused by N3104 are not counted by the code and unbounded (proved); all others are bounded by four. (`c28_violated`, `c28_unbounded_violated`)
* **C29 Uplink TBF cannot get stuck.** The wait for an immediate assignment and for a past single block has no timer (proved); all other states have one, or leave at the granted block. (`c29_violated`, `c29_stuck_violated`, `c29_single_block_violated`)
* **C30 Assignment with starting time never aborts.** False of the code for assignments without a timeslot or of an unsupported kind (proved); proved for the others. (`c30_violated`, `c30_unsupported_violated`, `c30_no_timeslot_violated`)
* **C31 One uplink transmission per RTS, in priority order.** When two TBFs of the context are given the same USF, the first one's dummy block goes before the second one's data (proved); everything else is proved for all histories, and data before dummy blocks when the block has one owner. (`c31_shared_usf_violated`)
* **C32 Poll reservations are exclusive, honoured and do not outlive their owner.** Exclusivity, lookup, expiry and release of TBFs proved as a refinement for every history and tree shape; polls owned by an MS entity survive it (negation proved). (`c32_owner_violated`)
* **C35 Block size identifies the coding scheme.** Uplink proved; downlink proved for CS-1..4 and MCS-1..4, false of the code for MCS-5..9 (negation proved). (`c35_size_dl_violated`)
* **C37 Requested octet count covers the queue.** PACKET DOWNLINK ACK/NACK proved; false of the code for PACKET RESOURCE REQUEST (negation proved). (`c37_octet_count_violated`)
* **C38 RLC/MAC entities follow TLLI assignment.** Nothing keeps a mobile station from being given another one's TLLI, and the value that stands for no TLLI finds an entity (both proved); proved for all histories without these. (`c38_violated`, `c38_violated_unassigned`)
* **C40 SNDCP segments fit the link and carry the whole N-PDU.** False of the code above 65279 octets (abort) and above 256 fragments (F set again), both proved; proved for everything else. (`c40_statement_violated`)
* **C41 SNDCP reassembly recovers the N-PDU.** False of the code from 16 segments on (segment numbers wrap at 15, proved with a 2055 octet N-PDU over N201-U 140); proved up to 15 segments, which covers every N-PDU of the standard, from any receiver state. (`c41_statement_violated`)
* **C42 SNDCP reassembly tolerates reordering.** As C41, with any order behind the first segment. (`c42_statement_violated`)
* **C43 SNDCP never mixes N-PDUs.** The N-PDU number is not compared, so segments of two N-PDUs can be mixed (proved); provenance of every delivery proved for all histories. (`c43_statement_violated`)
* **C44 SNDCP ignores duplicated segments.** A repeated segment before completion appends zero octets (proved); late repetitions and an immediately repeated first segment proved harmless. (`c44_statement_violated`)
* **C45 SNDCP header parsing stays in bounds.** Three exceptions proved: empty payload, first segment of three octets, more than 65279 octets collected; proved safe otherwise for all histories. (`c45_statement_violated`, `c45_more_short_violated`, `c45_overrun_violated`)
* **C46 SNDCP XID fields survive encode/decode.** Coding proved in full; decoding loses ROHC profiles when there are 1 to 15 of them and does not understand V.44 dictionaries of 256 to 264 code words (proved). (`c46_rohc_violated`, `c46_v44_violated`, `c46_statement_violated`)
* **C47 Peer XID cannot crash SNDCP.** Crafted blocks of 2, 3 and 6 octets read out of bounds or abort, and legal proposals whose answer is longer than 256 octets overflow the buffer (proved); proved safe, with the standard's answer, for all other legal proposals. (`c47_crafted_violated`, `c47_long_answer_violated`, `c47_statement_violated`)
* **C48 Compression entity bookkeeping.** Bookkeeping proved for all histories of arbitrary octets; a header compression field without algorithm deletes the data compression entity of the same number (proved). (`c48_statement_violated`)
* **C50 PDP context activation is always answered.** A refusal by GMM or a release is never reported, and a REJECT with cause 0 is reported as accepted (both proved); never two answers, no unsolicited answer in any history, and exactly one answer if no such event meets the procedure. (`c50_violated`, `c50_violated_cause0`)
* **C53 LLC is resumed whenever GMM is registered.** An update given up or rejected with cause 13, 15 or 25 leaves the link suspended (proved); proved for the histories in which every update is answered otherwise. (`c53_violated`, `c53_violated_reject`)
* **C54 P-TMSI signature is stored as received.** The octets are shifted wrongly: right exactly for the 256 signatures below 256 (proved); a stored signature is sent as it is. (`c54_violated`)
* **C55 QoS profile bit rates survive encode/decode.** The exact set of rates encoded correctly is proved; 16.1-17, 129-130, 258-260 and 504-1600 Mbit/s are encoded wrongly (proved). (`c55_encoder_violated`)
* **C56 QoS profile length is self consistent.** Lengths 14 and 18 make the decoder read outside the buffer and length 5 built by the encoder is refused (proved, exact); the round trip is proved for all other profiles. (`c56_profile_violated`)
* **C58 LLC commands and responses are told apart by the peer.** False of the code for responses; negation and the resulting endless exchange proved. (`c58_response_violated`, `c58_violated`, `c58_xid_exchange_never_ends`)
* **C59 LL-XID requests reach the peer.** Proved without Layer-3 parameters; with them the frame's FCS is wrong at the peer (negation proved). (`c59_violated`)
* **C60 No LLC request or received frame aborts or reads out of bounds.** Proved for all requests and all frames except two malformed kinds, for which it is false (negations proved). (`c60_violated`, `c06_violated_overflow`)
* **C61 Downlink data blocks cannot abort the mobile.** Proved for senders that keep PDUs within 1543 octets; false otherwise (78 blocks without end of PDU abort the process). (`c61_dl_data_never_aborts_violated`)
* **C62 An empty LL-PDU is harmless.** Proved for non-empty LL-PDUs; false of the code for empty ones (negation proved). (`c62_empty_pdu_violated`)
* **C63 Configured queue management stays in force.** Proved until the first countdown procedure; false of the code afterwards (negation proved). (`c63_codel_stays_violated`)
* **C64 Absolute starting times are decoded exactly.** Proved for fields in the ranges of the frame number coding; false of the code for T3 above 50 (negation proved). (`c64_starting_time_range_violated`)
* **C68 SNDCP N-PDU numbers advance by one.** The code counts modulo 4095, number 4095 is never used (proved). (`c68_statement_violated`)
* **C69 Negotiated compression works.** 256 RFC 1144 slots and proposals without parameters give entities without compressor (proved); proved for all other legal proposals. (`c69_violated`, `c69_statement_violated`)
* **C70 Both sides agree on compression.** Does not hold if the asking side's own accept flag is off, nor for a second negotiation, because the asking side forgets its entities first (proved); proved otherwise for all proposals. (`c70_flag_violated`, `c70_second_violated`, `c70_statement_violated`)
* **C71 SNDCP answers the NSAPI that asked.** Violated when two NSAPIs share a SAPI: the confirmation goes to the lower NSAPI (proved); proved for the lowest NSAPI of a SAPI. (`c71_confirmation_violated`)
* **C72 SNDCP activation uses the SAPI asked for.** Violated when an active NSAPI is activated again with another SAPI (proved); proved for NSAPIs not active before. (`c72_sapi_violated`)
* **C73 QoS bit rates are decoded as the standard says.** The exact set of octets decoded correctly is proved; 576 kbit/s to 8.6 Mbit/s and 0 kbit/s are decoded wrongly (proved). (`c73_decoder_violated`)
* **C74 QoS transfer delay survives coding.** The encoder is proved right; the decoder is wrong below 200 ms (proved). (`c74_delay_violated`)
* **C75 QoS extension octets are where the standard puts them.** Uplink and downlink extension octets are swapped (proved); proved when no extension is needed or both directions are equal. (`c75_order_violated`)
* **C76 PDP addresses survive coding.** An IPv4v6 address with only its IPv6 half is decoded from the wrong octets (proved); proved for all other addresses. (`c76_violated`)
* **C77 Decoding SM messages stays inside the message.** A PDP address element of length 0 or 1, and an IPv4v6 element with an IPv6 address only, make the decoder read outside the message (proved); REJECT always safe, ACCEPT safe otherwise. (`c77_violated`, `c77_violated_ipv6`)
* **C79 The user is told what the network granted.** The length of the granted QoS is not stored, the user sees it cut to the length asked for (proved); spare bits are not masked.  Proved when the lengths agree and spare bits are 0. (`c79_violated`)
* **C80 A refused SM message changes nothing.** A refused ACCEPT still overwrites SAPI, QoS and priority of an active context (proved); the procedure itself is proved untouched. (`c80_violated`)
* **C81 SM messages carry the identifiers of their context.** The identifier of the mobile station is used instead of the session identifier, and all transaction identifiers are 0 (proved); the content of the message is proved right. (`c81_violated`, `c81_violated_ti`)
* **C83 The end of an active PDP context is announced.** A release by GMM drops the context silently (proved); proved for the only other way. (`c83_violated`)
* **C84 The SM layer survives every history.** Protocol configuration options of 254 octets overflow the primitive (proved; see also C77); proved safe for all histories otherwise. (`c84_violated`)
* **C86 GMM procedures are tried five times.** Attach ends with the fourth expiry; the counter of updates is not reset, so later ones go on for 255 expiries (both proved). (`c86_violated`, `c86_violated_rau`)
* **C87 GMM requests are answered once.** Refused primitives, and a detach while attaching, lose the answer (proved); no unasked confirmation in any history, and exactly one otherwise. (`c87_violated`, `c87_violated_detach`, `c87_violated_refused`)
* **C88 GMM confirmations are truthful.** ATTACH REJECT with cause 0 is confirmed to SM as accepted (proved); proved in all other cases. (`c88_violated`)
* **C89 GMM requests say what was meant.** DETACH REQUEST has its type in the wrong half octet and an element too many, and the optional part of ROUTING AREA UPDATE REQUEST is unreadable, for all parameters (proved); ATTACH REQUEST is proved right. (`c89_violated`, `c89_detach_violated`)
* **C90 GMM tells the network the radio capability.** The element is always empty (proved for all parameters). (`c90_violated`, `c90_violated_always`)
* **C92 GMM's READY and periodic update timers cover a registered mobile station.** Without optional elements in ATTACH ACCEPT no timer ever runs, and the periodic timer can run in a mobile station that is not registered (proved); mutual exclusion holds in all histories, and the cycle of the timers once a READY timer is assigned. (`c92_violated`, `c92_violated_detached`)
* **C93 Detaching is confirmed only when it was asked for.** A DETACH ACCEPT nobody asked for is confirmed and takes the TLLI away, a power-off or a lost state loses the confirmation (proved); proved for a DETACH ACCEPT while detaching. (`c93_violated`, `c93_violated_unasked`, `c93_violated_lost`)
* **C94 Detaching ends.** Nothing bounds the wait for DETACH ACCEPT: no timer runs (proved for all sequences of timer events); power-off detaching ends at once. (`c94_violated`)
* **C95 Disabling GPRS switches GMM off.** Disabling has an effect only in one state (proved); proved for an entity that is switched off. (`c95_violated`, `c95_violated_poweroff`)
* **C96 An accepted mobile station becomes registered.** Without a new P-TMSI in ATTACH ACCEPT the mobile station is never registered, however often it tries, because RLC/MAC made the entity on the fly and refuses the assignment (proved for all P-TMSIs and sequences of attempts); proved with a new P-TMSI. (`c96_violated`, `c96_violated_always`)
* **C97 A detached mobile station leaves nothing behind in RLC/MAC.** No DETACH ACCEPT has an effect on RLC/MAC (proved for all states and messages), and attaching again with the same P-TMSI fails. (`c97_violated`, `c97_violated_always`, `c97_violated_again`)
* **C98 GMM messages are sent under a valid TLLI.** After a detach ATTACH REQUEST is sent under no TLLI (proved); in all histories the TLLI is that of creation, the local one of the P-TMSI in force, or none. (`c98_violated`, `c98_violated_ptmsi`)
* **C100 Decoding a field never overwrites another field.** False of the code for ten downlink and four uplink message types and two kinds of rest octets, each with a witness; proved for all others. (`c100_violated`, `c100_violated_downlink`, `c100_violated_uplink`, `c100_violated_rest`)
* **C101 System information 13 never aborts the process.** A system information 13 that announces a PBCCH aborts the process (proved); no abort otherwise. (`c101_violated`)
* **C102 Timers follow system information 13.** Proved for every message that announces no PBCCH, with or without a GPRS mobile allocation; a message announcing a PBCCH has no cell options and yet sets the timers, T3192 from the ARFCN (proved). (`c102_violated`)
* **C103 The SIM's answer is used only for the challenge in force.** An answer with reference number 255 is used by an entity that was never challenged (proved); proved in all histories for the reference numbers that exist. (`c103_violated`)
* **C104 A challenge passed to the SIM is answered to the network.** T3316 of an earlier authentication discards the new challenge (proved); proved from all states when no other authentication event intervenes and the neighbours accept. (`c104_violated`)
* **C105 Session management is told once when its registration is gone.** Switching off while deregistered releases the session again (proved); proved in all histories for every other event. (`c105_violated`)
* **C106 Pages reach exactly the mobile stations named.** The TMSI ffffffff pages a mobile station without P-TMSI, and a first identity of another type with packet paging indication loses the page of the second (both proved); proved otherwise, for requests without group call information. (`c106_violated`, `c106_violated_second`)
* **C107 Immediate assignments for others have no effect.** Every immediate assignment, even of a circuit switched channel, makes RLC/MAC leave the common control channel, and the first waiting mobile station takes it: the request reference is ignored (both proved).  At most one uplink TBF changes, and only one that waits. (`c107_violated`)
* **C109 No message on the CCCH aborts the process.** A starting time that is none (T3 above 50) aborts the process while a mobile station waits (proved; for SI13 see C101); nothing else does. (`c109_violated`)
* **C110 The packet data machinery never aborts or touches freed memory.** Asking for a new TBF in place of the one being released fails an assertion when the polled block carries another USF, and the reservation of a freed entity is used (both proved); no abort in all histories without these two and the assertion of C27. (`c110_new_tbf_violated`, `c110_freed_entity_violated`)
* **C111 A poll is answered in the reserved block with what was asked for.** A second assignment that takes effect at once makes the station send a dummy block instead of the acknowledgement asked for with the first (proved); proved for all histories when the poll is still due. (`c111_assigned_twice_violated`)
* **C112 Reserved polls belong to somebody who is still there.** The reservation for the answer to a downlink assignment outlives the entity (proved); proved for all other reservations, and for all in histories that give up no entity that owes an answer. (`c112_freed_entity_violated`)
* **C113 A downlink TBF begins at its starting time.** Only indications for timeslot 0 are compared with the starting time, whatever timeslots were assigned (proved): a downlink TBF that has to begin later does not begin when no indication for timeslot 0 comes in that very frame.  Proved: at once without a (later) starting time; otherwise not before, through every history without another assignment, and then on timeslot 0. (`c113_timeslot_violated`)
* **C114 A downlink TBF begins with the resources assigned.** An IMMEDIATE ASSIGNMENT that comes while another assignment waits keeps the timeslots of that one, and an assignment without TFI gives the TBF the TFI 255 (both proved); proved for all histories otherwise. (`c114_stale_timeslot_violated`, `c114_no_tfi_violated`)
* **C115 The packet channel is released when, and only when, nothing uses it.** The timer is not stopped when a new TBF begins and looks at one entity only, so the channel is released under a TBF (both proved).  Proved: only that timer releases the channel, and after the last TBF of an entity it always runs until it does. (`c115_new_tbf_violated`, `c115_other_entity_violated`)
* **C116 Messages reach only the mobile station they are addressed to.** An uplink TBF that has no resources yet takes messages for uplink TFI 0, and an entity without old TLLI takes those for the TLLI of all ones (both proved); proved for all histories otherwise. (`c116_tfi_zero_violated`, `c116_no_tlli_violated`)
* **C118 Encoding a control message gives exactly its bits.** The bit that ends a list of structures is not counted as written, so the padding behind it is one bit off (proved with PACKET PSI STATUS).  Proved: exact bits for every message without such lists, and the beginning of the block for all. (`c118_violated`)
* **C119 What is encoded can be decoded to the same message.** A message that does not fit the block is encoded without error and loses its last elements (proved with PACKET CELL CHANGE NOTIFICATION).  Proved for every message that fits. (`c119_violated`)
* **C121 Every uplink message type can be encoded without undefined behaviour.** Encoding a PACKET PAUSE reads 8 octets of a member of 6, whatever its contents (proved).  Proved: all other message types, and every structure whose message fits. (`c121_violated`)
* **C124 Contention resolution succeeds only with the station's own TLLI.** The TLLI in a PACKET UPLINK ACK/NACK is not compared with that of the station: an acknowledgement for another station that got the same resources ends contention resolution (proved).  Proved: acknowledgements for other TFIs leave the station alone. (`c124_violated`)
* **C125 Control messages that are not understood have no effect.** An acknowledgement in EGPRS format is taken for one in GPRS format (proved); and messages of unused types can make the decoder store outside a member, see C100 (proved).  Proved: all other unused types are ignored. (`c125_egprs_violated`, `c125_unused_violated`)
* **C127 Expanding arbitrary octets with V.42bis is memory safe and ends.** The width of codewords is limited to an eighth of the size of the dictionary (64 bits or more) instead of its logarithm, so a received codeword can index beyond the 4096 entries (proved, nine octets and default parameters).  Dictionary sizes up to 65535 are accepted, but there are 4096 entries.  Proved: with at most 4096 entries there is no fault as long as the width has not been raised beyond 12 bits. (`c127_violated`)
* **C128 An expanded packet fits into the buffer for it.** The buffer is not checked: 800 equal octets are compressed to 70 octets and written into a buffer of 764 (proved).  Proved: exactly the packets that fit are expanded. (`c128_violated`)
* **C129 TCP/IP header compression gives back every packet.** The code violates the property: after a segment with the URG flag, a segment without it that is sent as SPECIAL_D or SPECIAL_I comes out with the URG flag, because slhc_uncompress clears the flag only in the general case (c129_violated); changes of the ECE, CWR and reserved TCP bits and of the reserved IP bit are neither compared by the sender nor sent, so they are lost (c129_violated_marks). SPECIAL_I takes the length of the data as a signed number of 16 bits. Proved: without urgent segments, with the same value of these bits in all segments of a connection and at most 32767 octets of data per segment, every sequence of well-formed packets is carried unchanged, for every number of slots. (`c129_violated`, `c129_violated_marks`)
* **C130 Loss of a packet harms only its own slot, until the next full header.** Violated for the same packets as C129. Proved for the packets of C129's partial theorem and every pattern of losses. (`c130_violated`)
* **C131 Compression of headers is safe for all packets.** The code violates the property: slhc_compress reads the TCP header without checking that the packet is long enough (20 octets with IHL 15), and rfc1144_compress reads the first octet of an empty packet. Proved for all sequences of packets with at least one octet in which the IP header has at least 20 octets and 20 octets follow it, if it says TCP and not a fragment. The buffer new_seq of 16 octets (at most 15 are used) is not modelled. (`c131_violated`, `c131_violated_empty`)
* **C132 Expansion of headers is safe for all received packets.** The code violates the property: a stored header with options has up to 120 octets, and a compressed packet of four octets gets a buffer of 104. Proved for all sequences of packets without compressed packets of three, four or five octets. (`c132_violated`)
* **C133 Compressed packets of a slot without a header are discarded.** The code violates the property: a slot without header is used as a header of zeros with length 0, and octets that were never sent are delivered. Proved: numbers of slots that do not exist are refused after every history. (`c133_violated`)
* **C134 After a refused packet, compressed packets without a slot number are discarded.** The code violates the property: a compressed packet of fewer than three octets is refused without a trace, and the next packet is applied to the wrong state. Proved if the refused packet was a full header (whatever was wrong with it), or a compressed packet of at least three octets for a slot that does not exist. (`c134_violated`)
* **C135 Header compression can be used with every negotiated number of slots.** The code violates the property: with S0-1 = 255 slhc_init(256) returns a null pointer, which is not checked and is used for the first packet. Proved for all smaller values. (`c135_violated`)
* **C139 Retransmissions of EGPRS blocks use the puncturing schemes of the standard.** The code applies the table for changes between MCS-6 and MCS-9 to the scheme that would come next, not to the one last used: an MCS-9 block sent with P1 is sent again with MCS-6 and P2 instead of P1 (proved). Proved for all other transmissions. (`c139_violated`)
* **C140 Resegmented EGPRS blocks carry every octet of the payload, in order.** When MCS-4 is commanded after the first half of an MCS-4 block was sent with MCS-1, the second half is sent with MCS-4, followed by 22 octets that are no data (proved). Proved for all other schemes, and for MCS-4 without resegmentation. (`c140_violated`)
* **C141 A primitive handed to the library is freed exactly once.** A GRR-DATA.ind to LLC, LL primitives SNDCP does not take and SNSM primitives other than ACTIVATE/DEACTIVATE.ind are freed twice; SN-DATA.req for an existing entity, SMREG primitives other than PDP-ACTIVATE.req (such as the documented PDP-DEACTIVATE.req), SNSM primitives SM does not take and unsupported GMMREG primitives are read after they were freed; unsupported GRR and GMMRR requests to RLC/MAC are never freed (all proved, with the exact list). Proved for every other primitive. (`c141_violated`, `c141_violated_others`)
* **C142 A callback that returns 1 keeps the primitive.** SM's callback to its user is the exception: the primitive is freed also when the callback returned 1 (proved). LLC's callback up passes 1 on to its caller, which ignores it. Proved for all the others. (`c142_violated`)
* **C143 Packets to the mobile station arrive unchanged and in order over a lossy radio link.** Composition of C40/C41, C12/C57 and C21. When 63 consecutive blocks of a TBF are lost before the next arrives, the packets in the last block are never delivered (proved with 64 packets). Proved for all other histories. The SNDCP entities are given, see C49 for finding them; compression is off. (`c143_violated`)
* **C144 Packets from the mobile station arrive unchanged and in order.** Composition of C40/C41, C12/C57 and C19. A packet whose frame fills the rest of the last block of a TBF behind another frame is lost (proved). Proved otherwise. The SNDCP entities are given; compression is off. (`c144_violated`)
* **C147 Packets survive the whole stack over a lossy uplink.** As C144, but with losses and delays in both directions: combines C145 and C19 with the path through SNDCP and LLC. A packet whose frame fills the rest of the last block of a TBF behind another frame is lost although the mobile station is told the TBF is complete (proved). Proved otherwise. (`c147_violated`)
* **C148 Frames given at any time arrive through one uplink TBF after the other.** With two timeslots the code counts down too fast (C23): a frame of 90 octets in CS-1 gets countdown values 2, 1, 0 with 30 octets left, which are never sent, although the transfer is acknowledged as complete; the network puts together a frame of 60 octets (proved). Proved for one timeslot per TBF, unless two or more frames fill the last block exactly (C19); with one timeslot nothing fails and every TBF comes to its end in any case. Frames are of one radio priority; timers that give up the TBF are left out. (`c148_violated`)
* **C149 Packets sent at any time over a lossy uplink are delivered.** C148 with the path through SNDCP and LLC. With two timeslots an N-PDU of 80 octets is lost although the TBF is complete (proved). Proved for one timeslot per TBF, unless two or more frames fill the last block exactly. (`c149_violated`)
* **C151 A downlink transfer comes to its end.** When the first 63 blocks of a window get lost and the 64th arrives, V(R) is not raised but the block is marked as received; once the other 63 have come, the mobile station reports block 63 as missing and ignores it whenever it is sent again: the transfer never ends (proved). Proved for a network that keeps to 63 or fewer blocks, with one round for each block not acknowledged. Timers that give up the TBF are left out. (`c151_downlink_ends_violated`)
* **C153 A request to go to standby is honoured.** In DETACH ACCEPT, ROUTING AREA UPDATE REJECT and P-TMSI REALLOCATION COMMAND the element is in the lower half octet; gmm.c:1020, 1207 and 1287 look at the upper half, which is spare: no such message ever stops the READY timer (proved for all of them). Proved for the other messages, for the values 0 and 1 in ATTACH ACCEPT, ROUTING AREA UPDATE ACCEPT and AUTHENTICATION AND CIPHERING REQUEST, where the code takes every value but 0 as a request. (`c153_violated`)
* **C154 The network can reallocate the P-TMSI, with or without a signature.** gmm.c:1263 demands a length of exactly 15 octets, so that a command with the optional signature is refused by every mobile station without an answer (proved for all of them), and the code that reads the signature is never reached. Proved without signature. (`c154_violated`)
* **C155 An authentication request is answered with an authentication message.** gmm_pdu.c:329 builds the failure with the message type of P-TMSI REALLOCATION COMPLETE, so that the network never sees AUTHENTICATION AND CIPHERING FAILURE. Proved: a request that is not refused goes to the SIM or is answered with RESPONSE; all else that is sent is that message with one of four causes under the TLLI, and leaves no challenge in force and T3316 stopped. (`c155_violated`)
* **C156 An acceptance nobody asked for is ignored.** The data of the messages are applied before the state is looked at: a mobile station that is not attached takes the P-TMSI of an ATTACH ACCEPT, tells LLC and RLC/MAC and sends ATTACH COMPLETE; one that is detaching becomes registered by ROUTING AREA UPDATE ACCEPT (both proved). Proved otherwise: state, counters, session and procedures are kept, nobody is told of a registration, and the result is an error. (`c156_violated`)
* **C157 A message that is refused changes nothing.** ATTACH ACCEPT and ROUTING AREA UPDATE ACCEPT with a malformed optional part have already replaced the routing area and timers when they are refused, and, if the MS identity is no IMEISV, also the P-TMSI and TLLI, of which LLC is not told (c157_violated_tlli); ROUTING AREA UPDATE REJECT takes effect even if it cannot be parsed. Proved for all other messages (c157_partial), and for all but ROUTING AREA UPDATE REJECT that at most the routing area, the P-TMSI signature and the two timers change, with ROUTING AREA UPDATE ACCEPT also the P-TMSI and the TLLI; the state, session, PDP contexts, keys and counters never do (c157_keeps_partial). (`c157_violated`, `c157_violated_tlli`)
* **C159 A primitive reaches the mobile station it is for.** The full statement (C159Statement) is refuted: an entity keeps its former P-TMSI and TLLI until the next allocation and the search takes the newest entity that matches either (gmm.c:229-260). Once the network has given a mobile station another P-TMSI and the first one to another station, messages, pages and requests for the latter, even a request to attach with its own IMSI, go to the former owner. Proved: the primitive reaches the right station when its name is no other station's former one, and primitives for nobody are refused without effect. (`c159_violated`, `c159_violated_attach`)
* **C161 GPRS can be switched on and off.** The full statement (C161Statement) is refuted: the event that disables GPRS is permitted in GMM-DEREGISTERED only (gmm_ms_fsm.c:316) and the result of dispatching it is ignored, so a registered mobile station stays registered and goes on updating its routing area; and a detach for power-off leads from GMM-NULL to GMM-DEREGISTERED even while GPRS is disabled. Proved: while enabled no station is in GMM-NULL; disabling with all stations deregistered puts all into GMM-NULL, where nothing is sent until GPRS is enabled or a station detaches for power-off. (`c161_violated`, `c161_violated_poweroff`)
* **C162 A mobile station that the network accepts becomes registered, also when it has been attached before.** GMM and LLC composed: the statement is false. After DETACH ACCEPT the TLLI of GMM is the value "unassigned" and LLC has freed its entity; the next attach sends ATTACH REQUEST under TLLI ffffffff, and the LLGMM-ASSIGN.req of its ATTACH ACCEPT names a TLLI that LLC does not know (or twice the value "unassigned"), so LLC refuses it, ATTACH COMPLETE is not sent and the mobile station is not registered (c162_violated, by attach - accept - detach - detach accept - attach - accept; c162_again for every such state). Proved for every reachable state in which LLC knows the TLLI and, if there is one, the old TLLI: ATTACH ACCEPT registers, ATTACH COMPLETE leaves in one UI frame, LLC knows the mobile station under its new names (c162_partial); this holds from the first ATTACH REQUEST on (c162_first_attach) and is kept by the other users of LLC, received LL-PDUs and T3310 (c162_waiting). (`c162_violated`)
* **C163 A PDP context can be activated end to end.** SM and GMM composed: the statement is false. SM gives GMM the number of the mobile station as the session identifier of GMMSM-UNITDATA.req (sm.c:289-311) while GMM looks for an entity with that session (gmm_prim.c:647), and sessions are numbered from 0 in the order of the requests: the ACTIVATE PDP CONTEXT REQUEST of a mobile station whose number is not that of its session is dropped (c163_never: for every first request of a mobile station other than number 0). Proved for mobile station 0 and every NSAPI, QoS, P-TMSI and answer of the network: the request is sent under the new TLLI, the user is told and the context is active (c163_partial). (`c163_violated`)
* **C164 A mobile station sends activation requests for its own PDP contexts only.** Refuted for the same reason: mobile stations 1 and 2 ask for NSAPIs 5 and 6 (sessions 0 and 1); when the network accepts mobile station 1, its request goes to the entity with session 1, so mobile station 2 sends it under its own TLLI. Proved for every history of a device with one mobile station (c164_partial), and for every history at all that the NSAPI is one some user has asked for (c164_asked). (`c164_violated`)
* **C165 PDP contexts end with the registration.** Refuted: GMM keeps one session per mobile station, that of the last GMMSM-ESTABLISH.req (gmm_prim.c:610-640), and releases only this one. With the PDP context at NSAPI 5 active and one at NSAPI 6 asked for, switching the mobile station off leaves the first one active. Proved for every history and every GMM event that ends a registration: the PDP context whose session GMM has ends, whatever else GMM hands out at the same time (c165_partial). (`c165_violated`)
* **C166 A PDP context reported active carries packets.** Refuted: when the network reallocates the P-TMSI between the attach and ACTIVATE PDP CONTEXT ACCEPT, SM is not told the new TLLI (only ROUTING AREA UPDATE ACCEPT leads to GMMSM-MODIFY.ind), so SNDCP is given the old one and the user's packets under the new TLLI are refused. Proved for every history without ACTIVATE PDP CONTEXT REJECT of cause 0 (which SM reports to the user as accepted): SNDCP takes packets under the TLLI SM has at that moment. (`c166_violated`)
* **C167 A PDP context that has ended carries no packets.** Refuted: SM drops the PDP contexts of a mobile station that is switched off or detached without SNSM-DEACTIVATE.ind to SNDCP, which keeps its entity. Proved for the PDP context status element (GMMSM-MODIFY.ind): exactly the contexts the network calls inactive stop carrying packets, end, and are reported; everything else goes on. (`c167_violated`)
* **C168 An activation the network accepts is reported to the user.** Refuted: for a request without QoS profile SM keeps the length 0 of the request also for the granted profile, SNDCP refuses SNSM-ACTIVATE.ind with -EINVAL, and the user never hears of the PDP context. Proved for requests with a QoS profile of a length SNDCP knows, together with the state of GMM and SNDCP at that moment. (`c168_violated`)
* **C169 From switching on to packets in both directions.** Refuted: an ACTIVATE PDP CONTEXT REQUEST with a long access point name, an IPv4v6 address and long protocol configuration options has up to 405 octets, LLC takes no more than its N201-U of 400 octets on SAPI 1 and refuses it with -EFBIG, so the activation never gets on. Proved for requests of mobile station 0 (see C163) with a QoS profile of a length SNDCP knows (see C168) and at most 367 octets of QoS profile, access point name and protocol configuration options: every message leaves in its LLC frame with consecutive numbers, also across the change of the TLLI, the user is told, and any packets get through in both directions. (`c169_violated`)
* **C170 A packet the peer compressed as agreed is handed up as it was.** Refuted: sndcp.c:262-273 answers the question whether any compression is in use always with no, so that the compression values of received packets are stored and never looked at: after an accepted V.42bis negotiation the compressed octets are handed up to the user as the packet. Proved for every history: compression values make no difference to what is handed up, so packets that are not compressed are not harmed, and the station marks everything it sends as not compressed. (`c170_violated`)
* **C172 Sent data blocks are what the network reads.** Refuted: rlc.c:53 sets the stall indicator to 0 and nothing sets it otherwise, so that after 64 unacknowledged blocks, with V(S) = V(A) + 64, blocks leave with SI = 0 and the network is not asked for an acknowledgement. Proved for every history: all other fields and the payload. (`c172_violated`)
* **C173 Uplink data blocks are read as what they consist of.** Refuted: csn1_ts_44_060.c:5107-5117 follows the chain of length indicators for as long as the received octets go on, but the arrays have five entries: a block with six length indicators writes behind them. Proved: blocks with at most five are read as what they consist of, and any 23 octets of which one of octets 4 to 8 ends the chain do no harm. Blocks of CS-2 to CS-4 are not meant: the function takes 23 octets for granted. (`c173_violated`)
* **C176 A downlink control message is encoded to its header, its parts in order and padding.** Refuted as C118 is: csn1_enc.c:1183-1185 does not count the bit that ends a list of structures, so that the padding of an empty PACKET PAGING REQUEST is shifted. Proved: exact bits without such lists, and header and parts with them. (`c176_violated`)
* **C177 A downlink control message that was encoded is received as what it is.** Refuted: PSI13_t starts with a member Exist (csn1_defs.h:3210), so that the octet by which osmo_gprs_rlcmac_encode_downlink() selects the message (u.MESSAGE_TYPE) is not the member the table sends: with u.MESSAGE_TYPE = 55 alone the block carries message type 0. And a PACKET PAGING REQUEST one bit too long is encoded without an error and refused by the receiver. Proved: everything that fits, with the second octet set as well in a PSI13. (`c177_violated`)
* **C178 Encoding a downlink control message has no undefined behaviour.** Refuted: PHO_RadioResources_t has ARFCN as one octet, the table (csn1_ts_44_060.c:3779) sends ten bits of it, and csn1_enc.c reads two octets: a PACKET HANDOVER COMMAND sends the low bits of the next member (SI) as high bits of the ARFCN. Proved: all structures with parts that fit, and all errors of the header. (`c178_violated`)
* **C180 The size the peer agreed to is obeyed.** Refuted: gprs_llc_lle_process_xid_conf() (llc.c:674-690) hands the Layer-3 parameters of a response up and ignores its N201-U and N201-I; a peer that answers with N201-U = 200 is still sent 500 octets in one frame. Proved for XID commands of the peer. (`c180_violated`)
* **C184 An MS radio access capability is written exactly as its fields say.** Refuted as C118 is: csn1_enc.c:1183-1185 does not count the bit that ends the list of additional access technologies, so that the padding behind an entry in the short form is shifted. Proved: exact bits, padding included, for entries in the long form, and the bits before the padding for all. (`c184_violated`)
* **C186 A radio access capability that does not fit its buffer is refused, and others are read back.** Refuted: two additional access technologies take 33 bits; written to 4 octets osmo_gprs_rlcmac_encode_ms_ra_cap() returns 0, and osmo_gprs_rlcmac_decode_ms_ra_cap() refuses the result, as the end of the inner list is not counted (csn1_enc.c:1183-1185). Proved: success if and only if there is room, for the long form; reading back, for all that fit. (`c186_violated`)
* **C188 Ciphering that was agreed is used.** Refuted: llc_prim_handle_llgmm_assign_req() (llc_llgmm.c:145-231) ignores gea and kc, and nothing writes llme->algo; c188_in_the_clear: after every history, every UI frame sent on request says it is not ciphered and shows the data. GMM hands algorithm and key to LLC (gmm.c:543-546) and answers the network that ciphering was accepted. Proved: ciphered frames received are dropped. (`c188_violated`)
* **C189 Every PDP context a user asks for is requested from the network.** Refuted: SM numbers PDP contexts (sessions) from 0, but names the mobile station instead of the session in GMMSM-UNITDATA.req (sm.c:289-311), while GMM looks for the session of the last GMMSM-ESTABLISH.req (gmm_prim.c:619, 647). With the PDP context at NSAPI 5 of mobile station 0 active, the request for NSAPI 6 is dropped. Proved for every history: all activation requests that a mobile station ever gets out are for one NSAPI (c189_never), so it never has a second PDP context; and when the next session has the number of the mobile station, the request is handed out at once (c189_partial). (`c189_violated`)
* **C190 A PDP context is reported active only if it was requested from the network.** Refuted: SM assigns the answers of the network to PDP contexts by the session GMM names, which is that of the last GMMSM-ESTABLISH.req; the transaction identifier in the message is not looked at (sm.c:442-465, sm_prim.c:555-572). The user asks for NSAPI 5, the request is sent, the user asks for NSAPI 6, whose request is dropped (C189); the ACCEPT for NSAPI 5 then makes the library report NSAPI 6 active. Proved: when the user asks for one NSAPI only, it is reported active only after its request was sent (c190_partial); in general, only what was asked for is reported, and only after some request (c190_asked). (`c190_violated`)
* **C191 Optional elements the library makes no use of do not make an accept be refused.** Refuted: gprs_gmm_att_tlvdef (gmm_pdu.c:146-175) has no entry for most of these elements, tlv_parse (libosmocore, modelled from its documented behaviour) returns an error for a type not in the table, and the handlers then refuse the whole message (gmm.c:898-905, 1072-1080). An ATTACH ACCEPT with the list of equivalent PLMNs, which networks commonly send, does not register the mobile station. Proved: T3302 and MBMS context status change nothing (c191_partial); any other element of the list makes every accepted message be refused, without an answer, a change of state or a new TLLI (c191_refused); GMM INFORMATION beginning with a network name is always refused, although the library has a decoder for such names (c191_names). (`c191_violated`)
* **C192 Optional elements the library makes no use of do not make the answer to a PDP context request be refused.** Refuted: gprs_sm_att_tlvdef (sm_pdu.c:37-54) has no entry for SM cause, back-off timer, re-attempt indicator and NBIFOM container, tlv_parse (libosmocore) returns an error for a type not in the table, and the handlers then refuse the message (sm.c:351-355, 411-415). An ACCEPT in which the network says why it allows only one kind of address is refused, so the context is never activated; a REJECT with a back-off timer is ignored, so the user is not told and the request is repeated. Proved: the packet flow identifier changes nothing (c192_partial); any other element of the lists makes every accepted message be refused, with nothing handed out and no context changing its state (c192_refused). (`c192_violated`)
* **C193 The PDP context status reported is that of the message received.** Refuted: pdp_ctx_status_present is reset only where optional elements are parsed (gmm.c:1071-1157), which is skipped for a message without any; GMMSM-MODIFY.ind then repeats the status of an earlier message. Proved: with any optional element in the message the status reported is in the message (c193_partial); without one it is always the one stored before (c193_stale); in a device with session management a PDP context that became active since is thereby deactivated (c193_active_context_lost, one history). (`c193_violated`)
* **C194 An uplink EGPRS block says which LLC data it carries.** LLC data is written with length indicators in the format of GPRS (six bits of length, M, E) for EGPRS coding schemes as well: a frame of five octets is read by the network as one of ten, with five filling octets (proved). Proved for every frame of less than 64 octets that leaves at least one octet in its block: it is read with twice its length or the block cannot be read, so it never arrives. Proved to hold where no length indicator is needed, with and without a TLLI, which is least significant octet first as the standard wants. The headers of such blocks are not written by this version of the code (-ENOTSUP), so the blocks do not get out yet. Missing: which other blocks, with several frames or with a TLLI and a length indicator, happen to be read correctly. (`c194_violated`)
* **C195 The READY timer is the one the network assigned.** The value "deactivated", with which the READY timer never expires, is taken for zero: the mobile station goes to standby at once and starts periodic updates (proved; in every state such an accept does exactly what one with zero does). An accept without any optional element leaves the READY timer without the value asked for, so that it never runs after a first attach (proved). Proved for every other value, and for its absence beside other elements, in every state, with or without P-TMSI signature and P-TMSI, whatever the layers below answer. Missing in the proved part: further optional elements. (`c195_violated`, `c195_violated_absent`)
* **C197 The EGPRS bitmap reports exactly the received blocks.** Block numbers are compared without regard to their being counted modulo 128: when V(R) has passed from 127 to 0 and V(Q) has not, the bitmap is empty (proved: blocks 0 to 126 and 129). Proved for all other states of the window. The function is not called by this version of the code. (`c197_violated`)
* **C198 A mobile station the network has turned away does not come back at once.** Refuted: the handler of the rejection in gmm_ms_fsm.c makes no difference between causes, and T3346 is stored (gmm.c:996-997) and never read. Asked to attach with its P-TMSI right after any ATTACH REJECT, every mobile station asks the network again (c198_never). Proved: every ATTACH REJECT, with or without T3302 or T3346, ends the attempt, nothing is sent, the user that asked is told the cause, and whichever timers of GMM run out afterwards nothing is handed out (c198_partial). (`c198_violated`, `c198_violated_wait`)
* **C199 The network can detach a mobile station.** Refuted: the network's DETACH REQUEST is not among the messages the library knows (gmm.c:1460-1499), although the header offers GMMREG-DETACH.ind to report it; it is refused with -EINVAL in every state, without an answer (c199_never). AUTHENTICATION AND CIPHERING REJECT is handled as a rejected attach, which the state machine does not permit in GMM-REGISTERED. No message at all ends the registration of a mobile station that is not updating (c199_no_message). Proved: a ROUTING AREA UPDATE REJECT without optional part ends it, with any cause but 13, 15 and 25, and session management is told (c199_partial). (`c199_violated`, `c199_violated_auth`)
* **C200 The network can deactivate a PDP context.** Refuted: only ACTIVATE PDP CONTEXT ACCEPT and REJECT are handled (sm.c:450-462); the network's DEACTIVATE PDP CONTEXT REQUEST is refused with -EINVAL in every state, without an answer (c200_never), so the context stays active. No session management message ends an active context (c200_no_message). Proved: a context that the network calls inactive in the PDP context status of a routing area update is reported to SNDCP, and ends, with an indication to the user, once SNDCP answers (c200_partial). (`c200_violated`)
* **C201 The user learns that the registration has ended.** Refuted: GMMREG-DETACH.ind is declared and can be allocated (gmm_prim.c:248-253), but nothing sends it; a mobile station whose routing area update is rejected, with any cause that ends the registration, becomes deregistered without a word to the user, whatever the message (c201_never). Proved: nothing but a detach for switching off and ROUTING AREA UPDATE REJECT ends a registration in one step (c201_ways; an ordinary detach goes through GMM-DEREGISTERED-INITIATED, C93 and C94), and session management is told of every such end if it has asked for the registration (c201_partial). (`c201_violated`)

## What is modelled

| directory of /repo | modelled | not modelled |
|---|---|---|
| src/llc | `crc24.c`, `llc_pdu.c`, `llc_xid.c`, unacknowledged transfer, XID and TLLI handling of `llc.c`, `llc_ll.c`, `llc_llgmm.c`, `llc_grr.c`, `llc_bssgp.c` | acknowledged (ABM) transfer, which the code does not implement either; logging |
| src/rlcmac | `rlc_window_ul.c`, `rlc_window_dl.c`, `rlc_window.c`, `rlcmac_enc.c` and `rlcmac_dec.c` for GPRS, `codel.c`, `llc_queue.c`, `coding_scheme.c`, `rlc.c` and the filling, transmission, retransmission and resegmentation of EGPRS blocks (not their headers), headers and octets of GPRS data blocks in both directions (`Rlc/Wire`), data blocks read and written for users of the library (`Rlc/DataApi`), EGPRS packet channel requests (`Csn1/ChReq`), the MS radio access capability on its own (`Csn1/RaCap`), encoding of downlink control messages (`Csn1/EncDl`; callbacks in tables not encoded), `pdch_ul_controller.c`, `tbf_ul.c`, `tbf_ul_fsm.c`, `tbf_ul_ass_fsm.c`, receiving side of `tbf_dl.c`, `gre.c`, `sched.c`, `tbf_dl_fsm.c`, `tbf_dl_ass_fsm.c`, the entity list and the message handlers of `rlcmac.c`, messages on the CCCH (immediate assignment, paging, system information 13), all descriptor tables | headers of EGPRS data blocks (not implemented in the code), and the final block sent again as second block of a pair; cell change and system information on the PACCH |
| src/csn1 | `csn1_dec.c`, `csn1_enc.c` with the uplink messages (callbacks, which no uplink message has, left out) | encoding of downlink messages, which a station never does |
| src/sndcp | `sndcp.c` segmentation and reassembly, `sndcp_xid.c`, `sndcp_comp.c`, entity handling of `sndcp_prim.c`, `v42bis.c` and packets of `sndcp_dcomp.c`, `slhc.c` and packets of `sndcp_pcomp.c` | the counters of `slhc.c`; acknowledged mode, which the code does not implement |
| src/sm | `sm_pdu.c`, `sm.c`, `sm_ms_fsm.c`, `sm_prim.c`, also on top of the model of src/gmm, and with those of src/gmm and src/sndcp (Sm/Phone), and of src/llc below them (Sm/Device) | PDP context modification and secondary contexts, which the code does not implement |
| src/gmm | `gmm_pdu.c`, `gmm.c`, `gmm_ms_fsm.c`, `gmm_prim.c` for any number of entities | the layer being initialized again while in use |
| src/common | `qos.c` | |

Thread interleavings do not arise: the library is single-threaded and driven by callbacks.  Time is present as timer
expiry events and, for CoDel and frame numbers, as explicit parameters.


## Axioms of each theorem

* no axioms: c58_command_partial, c58_response_violated, c58_violated, c64_starting_time_range_violated, c73_decoder_violated, c38_violated_unassigned, c98_violated_ptmsi

* `Classical.choice`, `Quot.sound`, `propext`: c01_fcs_is_crc24, c02_burst_detected, c03_ui_roundtrip, c04_u_roundtrip_partial, c05_is_roundtrip_partial, c06_decoder_safe_partial, c07_xid_roundtrip, c08_xid_decode_valid, c09_consecutive_nu, c10_oc_agree_partial, c10_oc_agree_violated, c11_repeated_duplicates_partial, c12_oversize_or_once, c12_suspended, c13_attribution_partial, c13_change, c13_unassign, c13_confirm, c14_params_legal, c57_inorder_delivery, c59_xid_req_delivered_partial, c60_never_faults_partial, c17_dl_window_exact_partial, c17_dl_window_exact_violated, c17_dl_window_deadlock_violated, c18_ack_bitmap_exact_partial, c18_ack_bitmap_exact_violated, c18_no_false_ack, c19_everything_is_sent, c20_parser_exact, c21_delivered_in_order, c21_all_delivered_partial, c21_all_delivered_violated, c21_delivered_in_order, c15_window_bounded, c16_leaves_only_acknowledged, c16_unacknowledged_repeated, c22_bitmap_applied, c24_conserved, c24_priority, c24_fifo_partial, c25_dequeue_safe_partial, c25_only_codel_drops_fail, c26_drop_only_after_interval, c26_parameters, c26_spacing, c25_dequeue_safe_partial, c23_countdown_value_partial, c23_counts_down_partial, c32_polls, c65_inc_dec, c65_inc_dec_range, c65_chan_code, c27_uplink_tbf_survives_partial, c28_access_attempts_partial, c29_not_stuck_partial, c30_assignment_partial, c30_poll_delays_start, c67_n3104, c40_segments_partial, c40_standard_partial, c40_any_count_partial, c40_first_flag_wraps, c41_in_order_partial, c41_standard_sizes, c42_stream_partial, c42_any_order_partial, c42_stream_partial, c43_one_npdu_partial, c43_provenance, c44_duplicates_partial, c44_single_twice, c68_numbers_partial, c46_coding, c46_decoding, c46_roundtrip_partial, c46_rohc_violated, c46_statement_violated, c47_answer_partial, c47_long_answer_violated, c48_proposals_partial, c69_works_partial, c70_exchange_partial, c70_first_partial, c70_statement_violated, c49_entities, c71_confirmation_partial, c72_sapi_partial, c55_encoder_partial, c55_encoder_violated, c56_decoder_partial, c56_profile_partial, c73_decoder_partial, c74_delay_partial, c75_order_partial, c76_decode_partial, c77_partial, c82_status, c84_partial, c52_terminate, c54_sent_partial, c86_violated_rau, c86_fourth_partial, c96_violated_always, c99_downlink, c99_uplink, c99_immAss, c99_si13, c99_p1, c99_p2, c99_raCap, c100_downlink_partial, c100_uplink_partial, c100_rest_partial, c101_partial, c101_bits_partial, c103_partial, c39_imm_ass, c106_partial, c106_type2_partial, c109_partial, c31_rts_good_partial, c110_no_abort_partial, c111_polls_answered_partial, c111_reserved_until_due_partial, c112_reservations_live_partial, c112_in_turn_partial, c113_begins_partial, c114_resources_partial, c115_release_partial, c116_addressed_partial, c117_one_entity, c118_encoding_exact_partial, c118_encoding_starts_partial, c119_round_trip_partial, c120_sent_messages, c121_confined_partial, c122_downlink_understood, c123_downlink_assignment, c123_uplink_assignment, c123_uplink_ack, c124_violated, c124_other_tfi_partial, c125_unused_types_partial, c126, c127_partial, c128_violated, c128_partial, c129_partial, c130_partial, c131_partial, c132_partial, c133_partial, c134_partial, c135_partial, c136_payloads, c138_parser_exact, c139_violated, c140_violated, c143_violated, c143_partial, c143_at_any_time, c144_partial, c145_reliable, c146_completes, c147_violated, c147_partial, c147_at_any_time, c148_partial, c148_reliable_partial, c149_violated, c149_partial, c150_downlink_reliable, c151_downlink_ends_partial, c152_downlink_packets, c153_standby_partial, c158_independent, c159_partial, c162_partial, c162_first_attach, c163_violated, c163_partial, c163_never, c164_partial, c164_asked, c165_partial, c166_partial, c167_violated, c167_partial, c168_partial, c169_partial, c170_violated, c171_only, c172_violated, c172_partial, c173_partial, c173_safe, c175, c175_refused, c176_partial, c177_partial, c178_partial, c179, c179_answer, c180_partial, c181, c181_default, c182, c183, c183_controlAck, c183_data, c184_partial, c184_starts_partial, c185, c186_room_partial, c186_round_trip_partial, c187_standing_queue_is_shortened, c187_first_drop, c188_violated, c188_in_the_clear, c189_violated, c189_partial, c189_never, c190_violated, c190_partial, c190_asked, c196_window_says, c197_violated, c197_partial, c200_partial

* `Quot.sound`, `propext`: c05_violated_sack, c05_violated_rnr, c05_violated_ack_req, c07_xid_encode_in_bounds, c11_no_duplicates_violated, c11_new_accepted, c19_segmentation_inverse_partial, c19_encoder_progress, c19_segmentation_inverse_violated, c24_fifo_violated, c25_dequeue_safe_violated, c26_factor, c62_empty_pdu_violated, c63_codel_stays_partial, c63_codel_stays_violated, c23_countdown_value_violated, c32_owner_partial, c33_poll_fn, c33_poll_block, c34_starting_block, c35_size_ul, c35_size_dl_partial, c35_size_dl_violated, c36_retx_mcs, c36_retx_compatible, c37_octet_count_partial, c37_octet_count_violated, c64_starting_time_rfn_partial, c27_wraparound_violated, c28_violated, c29_violated, c29_single_block_violated, c30_imm_ass_grants, c30_pkt_ul_ass_grants, c66_next_block, c40_refusal, c43_statement_violated, c44_statement_violated, c45_receive_safe_partial, c45_statement_violated, c68_numbers_distinct, c47_statement_violated, c48_well_kept, c48_no_abort, c71_confirmation_violated, c72_sapi_violated, c74_delay_violated, c76_encode_partial, c78_request, c78_apn, c50_partial, c51_bounded, c51_expiry, c51_ends, c79_partial, c79_step, c80_partial, c81_partial, c81_violated, c83_partial, c84_violated, c53_violated, c53_violated_reject, c53_answered_partial, c53_accept_partial, c54_violated, c54_stored, c54_right_partial, c85_floor, c85_monotone, c85_exact, c86_violated, c87_violated, c87_violated_detach, c87_violated_refused, c87_solicited_partial, c87_answered_partial, c88_violated, c88_truthful_partial, c89_attach_partial, c90_violated_always, c91_digits, c91_identity, c38_found_partial, c38_assign_partial, c92_violated, c92_violated_detached, c92_timers_partial, c92_cycle_partial, c93_violated, c93_violated_unasked, c93_violated_lost, c93_accept_partial, c94_stuck, c94_violated, c94_poweroff_partial, c95_violated, c95_violated_poweroff, c95_null_partial, c96_violated, c96_new_ptmsi_partial, c97_violated, c97_violated_always, c97_violated_again, c98_violated, c98_current_partial, c98_tlli_partial, c100_violated, c102_partial, c102_violated, c103_violated, c104_violated, c104_partial, c105_violated, c105_partial, c107_reference_ignored, c107_partial, c108_plain, c108_hopping, c108_uplink, c120_bitmap, c121_every_type_partial, c125_unused_violated, c129_violated, c129_violated_marks, c130_violated, c131_violated, c131_violated_empty, c132_violated, c133_violated, c134_violated, c135_violated, c137_indicator, c139_partial, c140_partial, c141_violated, c141_partial, c141_partial_ms, c144_violated, c148_violated, c151_downlink_ends_violated, c153_violated, c153_never, c154_violated, c154_signature_refused, c154_realloc_partial, c155_violated, c155_partial, c156_violated, c156_unattached, c156_detaching, c156_partial, c157_violated, c157_violated_tlli, c157_partial, c157_keeps_partial, c159_violated, c159_violated_attach, c159_nobody, c160_fresh, c161_violated, c161_violated_poweroff, c161_enabled, c161_disable, c161_enable, c161_disabled_partial, c162_violated, c162_waiting, c162_again, c164_violated, c165_violated, c166_violated, c168_violated, c169_violated, c170_partial, c170_sender, c171, c171_transfer, c171_others, c173_violated, c174, c180_violated, c183_acked, c184_violated, c186_violated, c191_violated, c191_partial, c191_refused, c191_names, c192_violated, c192_partial, c192_refused, c193_violated, c193_partial, c193_stale, c193_active_context_lost, c194_violated, c194_never, c194_partial, c195_violated, c195_violated_absent, c195_deactivated, c195_partial, c198_violated, c198_violated_wait, c198_never, c198_partial, c199_violated, c199_violated_auth, c199_never, c199_no_message, c199_partial, c200_no_message, c201_violated, c201_never, c201_ways, c201_partial

* `propext`: c03_mac_refused, c04_u_roundtrip_violated, c06_violated_overflow, c06_violated_underflow, c06_decoder_safe_violated, c13_violated_unassigned, c13_violated_collision, c58_xid_exchange_never_ends, c59_violated, c60_violated, c06_violated_overflow, c20_short_payload_overread, c61_dl_data_never_aborts_violated, c32_total, c32_owner_violated, c27_unexpected_ignored, c27_violated, c27_early_ack_violated, c27_n3104_violated, c27_starting_time_violated, c28_unbounded_violated, c29_stuck_violated, c30_imm_ass_waits, c30_violated, c30_unsupported_violated, c30_no_timeslot_violated, c40_statement_violated, c41_statement_violated, c42_statement_violated, c45_more_short_violated, c45_overrun_violated, c68_statement_violated, c46_v44_violated, c47_crafted_violated, c48_statement_violated, c69_violated, c69_statement_violated, c70_flag_violated, c70_second_violated, c56_profile_violated, c73_absent, c75_order_violated, c76_violated, c77_violated, c77_violated_ipv6, c78_context, c50_violated, c50_violated_cause0, c79_violated, c80_violated, c81_violated_ti, c83_violated, c85_decode, c89_violated, c89_rau_partial, c89_detach_violated, c90_violated, c38_violated, c100_violated_downlink, c100_violated_uplink, c100_violated_rest, c101_violated, c106_violated, c106_violated_second, c107_violated, c109_violated, c31_shared_usf_violated, c110_new_tbf_violated, c110_freed_entity_violated, c111_assigned_twice_violated, c112_no_stale_partial, c112_freed_entity_violated, c113_timeslot_violated, c114_stale_timeslot_violated, c114_no_tfi_violated, c115_new_tbf_violated, c115_other_entity_violated, c116_tfi_zero_violated, c116_no_tlli_violated, c118_violated, c119_violated, c121_violated, c125_egprs_violated, c127_violated, c141_violated_others, c142_violated, c142_partial, c142_partial_rest, c176_violated, c177_violated, c177_long, c178_violated, c186_short_form, c188_partial, c200_violated, c200_refused, c200_never

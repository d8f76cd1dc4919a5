# Formal model of ledger-app-ergo

Source: `/repo` (C, read as text, not built).  Model and proofs: Lean 4 + Mathlib,
`/verif/lean/Verif`.  Properties: `properties.jsonl`; which theorem shows which property:
`MANIFEST.json`; wrong programs tried against the theorems: `seeded/LOG.jsonl`. There `failed_first` are the lemmas
and theorems whose proofs broke when the edited model was built, and `failed` the property theorems whose proofs use one
of them; an edit counts as caught when `failed` is not empty.

## Layout

| directory | content |
|---|---|
| `Verif/Model/*` | executable model, one file per C module; every definition cites file and lines |
| `Verif/Spec/*`  | small specifications written without the model's helpers |
| `Verif/Proof/*` | helper lemmas, simulation relations and invariants |
| `Verif/Props/*` | the theorems of the properties, named `Cxx_…`, with non-vacuity examples |
| `Verif/Vectors/*` | the repository's own tests (`unit-tests`, `tests`) run on the model, with the real BLAKE2b; these are tests of the model, not proofs |

A property that does not hold of the code has a theorem `Cxx_negation` with a concrete execution
(or input) that violates it, and a theorem `Cxx_…_partial` with the largest part that was found true.

## What is modelled

| C source | Lean | how |
|---|---|---|
| `src/common/safeint.h` | `Model/SafeInt` | all four functions |
| `src/common/zigzag.h`, `gve.h`, `gve.c` | `Model/Gve` | all functions, on byte lists |
| `src/common/bip32_ext.{h,c}`, SDK `bip32.c` | `Model/Bip32` | all |
| `src/common/buffer_ext.{h,c}`, `rwbuffer.{h,c}`, SDK `buffer.c`, `read.c`, `write.c` | `Model/RwBuffer` (addresses, sizes, offsets), `Model/Bytes` (unread bytes as a list) | all; `C39_view` relates the two |
| SDK `varint.c`, `buffer_read_varint` | `Model/Varint` | all (not used by the app) |
| SDK `base58.c` | `Model/Base58`, `Model/Base58Decode` | encoder; decoder (not used by the app: it stands for the reader of an address) |
| `src/ergo/address.{h,c}`, `ergo_tree.{h,c}`, `network_id.h` | `Model/Address` | all |
| `src/ergo/schnorr.{h,c}` | `Model/Schnorr` | both functions |
| `src/ergo/tx_ser_table`, `_input`, `_box`, `_full` `.{h,c}` | `Model/Table`, `Input`, `Box`, `Full` | all |
| `src/helpers/input_frame.c`, `ainpt_response.c` | `Model/InputFrame` | all |
| the writers in `tx_ser_*.c`, `address.c`, `ergo_tree.c`, `*_response.c` once more, on arrays in memory | `Model/Emit` | all uses of `rw_buffer_*`; the rest of the model uses the bytes only (C60 says that they are the same) |
| `src/helpers/session_id.h`, `sw.h`, `sw_result.h` | `Model/Device`, `Model/Sw` | all |
| `src/helpers/crypto.c`, `blake2b.c` | `Model/Env` | as parameters: derivation, public key, compression (modelled), hash, HMAC |
| `src/helpers/crypto.c`, `blake2b.c`, `src/ergo/schnorr.c`, and start and end of `stx_op_p2pk.c` once more, with their arrays and every call into the SDK | `Model/Crypto` | all; of the key structures of the SDK only `d` and `W`; a failed hash call leaves the context as it was; `cx_math_is_zero` and the difference given by `cx_math_cmp` are exact (C67 relates it to `Model/Schnorr`, `Model/P2pk`) |
| `unit-tests/utils/blake2b-ref.c`, `blake2-impl.h`, and of `cx.c` the hash functions | `Model/Blake2b` | without key; on the device BOLOS hashes (C71 justifies the parameter `blake` of `Env` for it) |
| BOLOS `cx_ecfp_scalar_mult`, `cx_ecfp_generate_pair` on secp256k1 (not in the repository) | `Model/Secp256k1` | affine formulas, an instance of `mulG` and `pubOf` of `Env` (C72) |
| `src/commands/extpubkey/*`, `deriveaddress/*`, `attestinput/*` | `Model/Device`, `Model/Attest` | all |
| `src/commands/signtx/*`, `operations/stx_op_p2pk.*` | `Model/Amounts`, `OutputInfo`, `P2pk`, `Ui`, `Device` | all |
| the union of `stx_op_p2pk.h` once more, as memory | `Model/Layout` | sizes and offsets for every choice of the compiler (C83) |
| `src/context.{h,c}`, `apdu_dispatcher.c`, `app_version.c`, `app_name.c` | `Model/Device` | all |
| `src/ui/*` | `Model/Ui` (titles and values), `Model/Draw`, `Model/DrawDevice` (the character arrays) | flows, dynamic paging, approve/reject; not glyphs and fonts |
| `src/ui/ui_main.{h,c}`, `ui_menu.c`, `ui_approve_reject.c` once more, with the global array of screens | `Model/Panel` | all; the order in which the two arguments of `ui_approve_reject_screens` are evaluated is a parameter; not `ux_stack_push` |
| SDK `ux_flow_engine.c`, with `src/ui/ui_dynamic_flow.c`, `ui_bip32_path.c`, `ui_approve_reject.c` once more | `Model/Engine` | `ux_flow_init`, `_next`, `_prev`, `_validate`, `_relayout` after the published SDK (sources not in the repository); not the division of a long text into several screens (C68 relates it to `Model/Ui`) |
| SDK `format.c` (`format_u64`, `format_fpu64`, `format_hex`), `snprintf`, `strncpy` | `Model/Draw` | after the published SDK and the C standard (sources not in the repository); `snprintf` only with `%d` and `%08x` |
| the time of `memcmp` in `handle_input_frame` | `Model/Timing` | number of bytes looked at, for a `memcmp` that compares bytes and stops at the first difference (not in the repository) |
| `src/app_main.c` | `Model/Run`; with messages as bytes `Model/Loop` | all; `io_init`, `io_recv_command`, `io_send_response_buffer`, `apdu_parser` after the published SDK (sources not in the repository); not the framing by the transport |

Not modelled: the USB/BLE transport, `TRY/CATCH` of BOLOS (a failing crypto call is the failure of the
parameter function), stack contents, timing (other than that of one comparison, C98), and everything physical.

## Modelling decisions

* `Device.step env nanoS : Device → Event → Device × Reply`.  An event is an APDU with the random
  values drawn while it is handled, or one of the buttons left, right, both.  `wait` is "no reply
  yet".
* `Runs env nanoS key tr d`: the executions from power-on, with the trace `tr` of observations (what
  is asked, what is on display, event, reply).  An execution stops at `hang` (no usable random session id)
  and at `ub` (undefined behaviour in C).
* `ub` is the outcome of reading a union member other than the one written, of using up the fuel of a
  loop, of a missing current output, and of negating `INT64_MIN`.  Where it can happen is the subject
  of C21 and C47.
* Bytes are `List UInt8`; integers have the C widths with wrap-around.  `UINT64_MAX - l` is written with
  natural subtraction (`u64MaxMinus`), which gives the same value.
* Hash contexts are the list of bytes fed so far (C71: for BLAKE2b this loses nothing); hashing never
  fails half way.  (`Model/Failing` is a second model of the same functions in which each call of the
  operating system whose result the code tests may fail: C86; failures of whole services: C75.  It has
  a failed call as one that reports failure; that the 16 bits kept of an error code in
  helpers/crypto.c:37,46,78 are not all zero is assumed.)  Hash, HMAC,
  derivation, public key and multiplication by the base point are the fields of `Env`; the theorems
  hold for every `Env` (for those that need lengths of results: `Env.WF`, inhabited by `toyEnv`).
* Callbacks in C are functions given to the serializer model; a `NULL` callback is a no-op.
* Screens: `Model/Ui` has title and value of every page, with numbers as numbers.  `Model/Draw` has the
  functions that fill the arrays `title` and `text`; a write out of the bounds of an array is `none`.
  C56 relates the two, so that statements about pages are statements about characters.
* The path screen of the signing request approves on both buttons, as in C
  (`FlowStep.pathApprove`, stx_op_p2pk.c:336-343).
* Both buttons on any other page do nothing in `Model/Device`.  For the page "Path" of export and address
  questions this is not what the engine of the SDK does (C68): statements about `Device` and `Runs`, among
  them C40 and C58, are about executions without such a press; after it nothing happens any more.
* `Model/RwBuffer`: memory is a function from addresses to bytes with a log of accesses; `size_t` has 32
  bits.  The other operand of a transfer (`out`, `from`) is a separate object, passed as a value.
* Where a C function writes into a context and then fails, the model keeps the written value only if
  something can read it afterwards (every failing handler wipes the context).

## Specifications

`Spec/Vlq` (numbers as digits base 128), `Path` (path classes and texts over naturals), `Base58`,
`Schnorr` (verification equation over any group), `Frame`, `Tx` (what commands describe, and its
serialization, balances), `Trace` (what an observer knows: the `Ghost` computed from the trace only),
`Commands`, `Consent`, `Attest`, `Shown`, `Keys`, `Limits`, `Authentic`, `Pages`, `Chunks`, `Lengths`,
`Wire` (readings of the signed bytes), `Buffer` (tapes), `Accept` (what fits after what was described),
`Start` (which start commands are as documented), `Complete` (sessions served to the end),
`Wallet` (a transaction as a wallet has it), `AttestFits`, `Replies` (lengths of replies), `Text`
(amounts, ids and paths as characters), `Panel` (screens of a question, menu), `Secrets`, `Mac`,
`Emit`, `Crypto` (which memory holds a secret), `Board` (questions run by the engine), `Loop` (messages
as bytes), `Replay` (sessions from what was accepted), `Blake2b` (RFC 7693), `Secp256k1`
(the curve, with the group of Mathlib), `Doc` (the tables of the documentation), `Loss` (what leaves the wallet),
`Faults` (executions with failures), `Blind` (two wallets), `Exact` (which transaction a session says), `Why` and `WhyAll` (demands with
their status words), `Reference` (all replies in one table), `Display` (all pages), `Base58Decode` (bytes of an address),
`Layout` and `LayoutRun` (the remembered change path), `Tell` (what pages tell apart), `CallFaults` and `MacFaults` (executions
with single failing calls), `Uniform` (random tapes), `Forge` (strategies and unknown tags), `Forgery`, `Truthful` and `Lives` (random authentication function), `Words` (table of status words), `Varint`, `Timing` (strategies with a clock).

## Proof structure

1. Serializers follow the description: `BoxSim`, `OutSim`, `FullIn`, `FullOut`, `Amt`, `P2pkSim`
   (relations between a C context and the `TxDesc`/`BoxDesc` described by the accepted commands).
2. `Trans`: every step of the device is one of a small number of transitions.
3. `Inv`: what the observer computed from the trace agrees with the device state, in every run.
4. `SignRel`, `AttSim`, `SignSim`, `Session`: the relations of 1 hold for the session in progress.
5. `AcceptIn`, `AcceptOut`, `AcceptOp`, `AcceptDev`: a command is accepted iff it fits the description;
   `Asks`: when an output is shown; `Start`: replies to start commands; `Complete`: sessions to the end.
6. `Props`: read the properties off 3 and 4.

## Findings (theorems named `_negation`)

| id | what the code does |
|---|---|
| C01, C02, C44 | a new output may be started before the previous one is complete (tx_ser_full.c:292-312); its bytes stay in the hash, and it is never shown |
| C44 | registers and context extensions are hashed without being parsed, so bytes sent as registers of one output may read as a further output |
| C13 | the declared script length is not hashed: a box id can be reached by two boxes with different tokens |
| C27 | `zigzag_encode_i32` sign-extends: values outside [-2^30, 2^30) do not round-trip |
| C28 | the VLQ reader accepts ten bytes whose last has a continuation bit, and overlong encodings |
| C33 | output tokens with amount 0 have no page; change outputs show the path only |
| C34 | `bip32_path_same_account`/`_is_equal` compare bytes instead of components: other accounts count as the same, and a changed last component as equal |
| C36 | a path of 8 or more components can be cut without an error |
| C39 | `rw_buffer_shift_data` after the write position was put before the read position copies beyond the array (the app never does this) |
| C40 | a change path too long for the screen ends the session when its page is drawn |
| C41 | two ids can have the same shortened text |
| C43 | one attested box can be used for several inputs, its value is counted each time (`C43_partial`: each box counts as often as its id occurs among the signed inputs) |
| C45 | version, name, change script, confirm and input frame ignore trailing bytes |
| C63 | a public key or address request refused because its path does not fit on the screen leaves its first page in the menu (epk_ui.c:55-68, da_ui.c:76-89) |
| C68 | both buttons on the page "Path" of an export or address question leave the device with a question that cannot be answered (ui_bip32_path.c:8-20: `ux_flow_next` in a flow of one step) |
| C65 | a failing `os_derive_bip32_no_throw` leaves `raw_private_key` on the stack (crypto.c:36-38); a failing `cx_math_multm`/`cx_math_addm` leaves challenge times private key in `buf` (schnorr.c:106-113) |
| C66 | `(uint16_t) result` (crypto.c:37, 46, 78) makes an error code with low half zero a success |
| C47 | a minted amount of 2^63 negates `INT64_MIN` |
| C73 | documentation and code differ: exports of `m/44'/429'` and of paths with a component that is not hardened, networks other than 0 and 16, signing with chain other than 0 and 1 are documented and refused; a known token still asks before signing; fee and change scripts are accepted whatever the announced script size |
| C87 | the result of `cx_hmac_sha256` is not tested and its array not initialised: while the call fails, a frame is accepted if its tag is what the array holds |
| C98 | tags are compared with `memcmp` (stx_handler.c:138): if it stops at the first difference, the time of the reply gives away how many bytes of a guess are right, and a tag is found with at most 4081 attempts |

Smaller facts seen on the way: value and frame count of frames with index > 0 are not compared with frame
0; the token table may contain an id twice; the fresh session id may equal the previous one; the scalar
test accepts the group order itself; a cut path in the signing request answers `0xE010` instead of
`0xE014`; the extension length of frame 0 is outside the authenticated bytes.

## Trusted base

* Lean's kernel, and the reading of the statements.
* Axioms: `propext`, `Quot.sound`, `Classical.choice`, nothing else.  Reported by `#print axioms` for all
  theorems of `MANIFEST.json`; those that need fewer:
  none: `C51_kinds`;
  `propext` only: `C38_injective`, `C41_negation`, `C65_negation`, `C66_negation`;
  `propext` and `Quot.sound`: `C05_add_u64`, `C05_sub_u64`, `C10_announced`, `C10_frame`, `C10_concat`,
  `C12_log`, `C27_negation`, `C30_error`, `C30_sticky`, `C30_never_finished`, `C38_p2pk`, `C38_p2sh`,
  `C38_same`, `C38_compressed`, `C38_kinds`, `C39_negation`, `C42_length`, `C56_read`, `C56_path`,
  `C65_public_partial`, `C65_init_partial`, `C66_public_partial`, `C66_init_partial`, `C71_length`.
* No `sorry`, no own axioms, no `native_decide`/`bv_decide`.  `decide +kernel` is used on closed
  terms only (examples, counterexamples, finite tables).
* The correspondence of model and C text (by reading; every definition cites its lines) and the
  simplifications listed above.
* C07 takes the group laws as a hypothesis on an abstract group of order `n` (C72 proves them for
  secp256k1); C09 takes as hypothesis that
  valid tags presented were emitted by the device; C13, C32 and C44 say "or here is a hash collision"
  (or use an injectivity hypothesis) where the claim needs one.

## Plan per property

| id | modelled by | proof |
|---|---|---|
| C01, C02, C44 | serializers, transcript; `Spec.Tx`, `Spec.Wire` | simulation; negation by concrete session |
| C03, C06, C08, C16 | `Device.step`, screens | invariant of trace and state |
| C04, C33, C47 | `Amounts`, `OutputInfo`, pages; integer sums over the description | simulation |
| C05 | `SafeInt` | case analysis + omega |
| C07 | `Schnorr` | modular arithmetic in an abstract group; sessions |
| C09 | frame handler | parsing lemma, history invariant |
| C10, C11, C42 | frames | list slices, round trip |
| C12–C15 | `Attest`, `Box` | simulation, injectivity, negation |
| C17 | path check, all derivations | exact characterisation, non-interference |
| C18–C20, C22–C24, C46 | `Device.step` | transitions |
| C21 | `ub` | invariant |
| C25–C28 | `Gve` | induction |
| C29 | serializers | two pieces join; induction over pieces |
| C30, C31, C35 | serializers | invariants |
| C32, C38 | `OutputInfo`, `Address` | simulation, injectivity |
| C34, C41 | exact characterisation, negations | |
| C36 | path text | injectivity, negation |
| C37 | `Base58` | loop invariant of the big-number conversion |
| C39 | `RwBuffer` | refinement to a tape |
| C40 | flows | induction over key presses |
| C43 | `Device` | concrete session; totals as sums over attested boxes |
| C45 | handlers | case analysis |
| C50, C51 | all start handlers, whole signing sessions; `Spec.Start`, `Spec.Complete` | exact parsers; induction over the commands of a session |
| C52, C53 | attestation commands and whole attestation sessions; `Spec.AttestFits` | exact parsers; induction over the commands of a session |
| C54, C55 | attested boxes and whole transactions as a wallet has them; `Spec.Wallet` (plain boxes and outputs, their serialization and the commands that send them) | bridge from attested descriptions to boxes; induction over chunks, frames, inputs and outputs; C50, C53 |
| C56 | characters in the arrays behind the screens; `Spec.Text` (texts from the digits of the values, `Holds`, `Renders`) | exact result of every formatting function on a zeroed array; invariant on the token table; injectivity of the texts |
| C57 | commands, questions and replies; `Spec.Replies` (counts, documented lengths) | counting invariant over executions; length of the data of every positive reply by cases on the transition |
| C58 | way from any screen to Reject; statement over arbitrary interleavings of commands | invariant: the page on display was reached from one end over pages that can be drawn; induction on the distance to Reject |
| C59 | two executions with different secrets; `Spec.Secrets` (`SamePublic`, `SameEvent`, `SameObs`) | noninterference by a relation that erases ephemeral key and hashed bytes, preserved by every function |
| C60 | `Emit` (the writers on arrays in memory); `Spec.Emit` (`Fills`, `Hands`, `Confined`) | refinement of the buffer operations (C39), induction over numbers and tokens |
| C61 | `Panel` (device with array, menu and order of evaluation) | refinement: every handler puts its question into the array (`Puts`), simulation relation `Match`, induction over events |
| C62 | `Spec.Heard` (`told`, `answered`, `failed`, `saw`), executions of `Panel` under both orders | simulation in both directions: a press under one order is a path of presses under the other (`Near`), induction over events |
| C63 | `Panel.menuStep`, entries of the array | negation by a computed run; invariants `Match`, `Tidy` |
| C64 | `Spec.Mac` (`SameFrame`, `SameButTag`, `SameObsButTag`) | two-run simulation: states equal up to the session key |
| C65 | `Spec.Clean`, `Spec.Made`, `Spec.NoLeakingFailure` | negation by two computed runs; the set of arrays each function writes, log of calls |
| C66 | `Spec.Made`, `Spec.CodesSurvive` | negation by a computed run; log of calls |
| C67 | `Spec.Serves`, `Spec.Sized` | refinement, loop by induction over the attempts |
| C68 | `Spec/Board`; engine of the SDK in `Model/Engine` | simulation `Matches` between the engine and the flows of `Model/Ui`; negation by a computed run |
| C69 | `Spec/Loop`; I/O functions of the SDK in `Model/Loop` | invariant `LoopOk` relating the exchange to an execution of the device; negation by a computed run |
| C70 | `Spec/Replay`: `replaySign`, `replayAttest`, `Leads` | invariant `Canon` over the transitions |
| C71 | `Spec.blake2b` | loop over buffered and new bytes; counter with carry; induction over blocks |
| C72 | `Secp256k1` | Pocklington certificates; formulas = group law of Mathlib; kernel computation of the order; injectivity of the 33-byte form; extraction from two responses |
| C73 | `Spec/Doc` | the tables of doc/ against `Request.Good` of C51; negations by computed runs |
| C74 | `Spec/Loss` | C02, C04 and the pages of C32, C33 joined; the token table is fixed before the first output (`log_table`) |
| C75 | `Spec/Faults` | one event with failing services is the same or an error with a blank device; a failure is simulated by the way out of C58 or an unknown subcommand |
| C76 | `Spec/Blind`, C59's masking | step by step, erasing keys, raw addresses and the address page from both devices gives the same device; unary invariants say which question was on display |
| C77 | `Spec/Exact`, `Spec/Wallet` | invariant of the description over the log (`DescOk`), attested sessions traced back to the moment of the frame, then the fields one by one |
| C78 | `Spec/Why` | each serializer call with a failing result traced to its first unmet demand; what fits (C48) meets all demands |
| C79 | `Spec/WhyAll` | dispatcher, start commands and attestation handled like C78; whether a session is open is read off the record (`LiveIff`) |
| C80 | `Spec/Reference` | every transition compared with the table: demands (C79), answers (C52), decisions (C49), pages as a ring, signature from the final state |
| C81 | `Spec/Display` | pages of C04, C16, C32, C33 as one list per question; order of tokens from the order in which the table grows; position in the ring from C80 |
| C82 | `Spec/Base58Decode` | long division in place by value (b58Div_spec), 256^120 ≤ 58^164, injectivity of the text, pages from C81 |
| C83 | `Spec/Layout` | members lie one after the other (offset_next, offset_end); the two other members of the union end before offset 168, which is before the path of the output; invariant over the accesses |
| C84 | `Spec/LayoutRun`, `Spec/Shown` | induction over the session: the path approved last and the path of the newest output without bytes (`LogKept`), then C83 and C49 |
| C85 | `Spec/Tell`, `Spec/Display` | C81 gives the pages as functions of the description; each function is inverted (hexadecimal ends of ids, amounts, base58 of addresses, prefix of path texts) |
| C86 | `Spec/CallFaults` | a second model in which each checked call is numbered and may fail (`Model/Failing`); by rules for sequences of calls (`Proof/Calls`) each function gives the result of the first model if its calls work and an error if one fails |
| C87 | `Spec/MacFaults` | one event with any authentication function is like one with the right function and another tag (`opFrame_garbled`), or both refuse; then C86 and C75 |
| C88 | calls of Model/Failing counted | cost rules for each way of combining calls, induction over the loops |
| C89 | Works: events with working calls; trouble: events with failing ones | mirror without failures (C87, C75), then C55 and the way to Reject of C58 |
| C90 | Left: whole, refused, unterminated or outside, as a table of sizes | induction on the digits; cases on the size |
| C91 | counting of tapes; ValidSig of the verifier | exchange of two keys in every draw (bijection of tapes); response equation; C59 and C80 for the device |
| C92 | counting of tags; strategies on what was seen | worlds with different tags cannot be told apart until one is presented (C64); the longest such execution contains all guesses |
| C93 | table of words by instruction and P1, over Obs | from C80 (the reply is that of the first unmet demand); executions for the other direction are run in the kernel |
| C94 | Bitcoin's variable length integers on byte lists | the functions on memory against the lists, with recorded accesses |
| C95 | game of guessing with a random function | induction over events: possible tags form a product, worlds that agree on what was seen run alike (C64) |
| C96 | probability over tags of all bodies | C95 with C09 and C77: the hypothesis about forged tags becomes an event of small probability |
| C97 | probability over tags of all bodies in every power cycle | induction over power cycles; one cycle is a game whose end is paid with the probability of the later ones |
| C98 | strategies with a clock; Below, weight of a guess | attack by increasing the first wrong byte (potential argument); bound by injecting tags into sequences of times |
| C99 | approvals, refusals (WithApprovals); Steals, Alike | invariant refusals + open session ≤ approvals; game tree in which all possible worlds share the device state |
| C48, C49 | handlers, serializers; `Spec.Accept`, `Spec.Shown` | both directions of the simulation, induction over the session |

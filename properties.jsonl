{"id": "C01", "title": "Signed message is the serialization of the transaction described by the host", "statement": "Whenever the device answers a transaction confirmation with a signature, the bytes that were hashed into the signature challenge are: the fixed P2PK commitment prefix (key, commitment) followed by the Ergo unsigned-transaction serialization (inputs, data inputs, token table, outputs, in order) of exactly the transaction the host described with its accepted commands in that session, with exactly the declared numbers of inputs, data inputs, tokens and outputs. (Found FALSE as stated: an output may be abandoned half-way, its bytes stay in the hash. Proved: negation with a concrete session, and the claim for every session in which no output is started before the previous one is complete.)", "quantifier": "every finite history of host commands, user decisions and random draws since power-on; every chunking of the data; any hash / HMAC / key derivation function", "why_tests_cant": "the message is accumulated over an unbounded number of APDUs in host-chosen chunks; only an invariant over all histories shows nothing else gets into the hash", "anchors": ["src/commands/signtx/stx_handler.c:handler_sign_transaction", "src/commands/signtx/operations/stx_op_p2pk.c", "src/ergo/tx_ser_full.c", "src/ergo/tx_ser_box.c", "src/ergo/tx_ser_input.c", "src/ergo/tx_ser_table.c"]}
{"id": "C02", "title": "Every output is confirmed by the user before a signature is released", "statement": "Whenever a signature is released, every output whose serialization went into the signed message was either shown on a confirmation screen and approved by the user in that session, or is a miners-fee output without tokens, or is a change output to a key of this device that qualified for automatic approval. (FALSE as stated because bytes of an abandoned, never completed output are signed without being shown. Proved: negation; and the claim for all completed outputs of every session.)", "quantifier": "every finite history of host commands and user decisions since power-on", "why_tests_cant": "requires reasoning about every interleaving of commands, approvals and aborted outputs", "anchors": ["src/commands/signtx/stx_handler.c:show_output_screen_if_needed", "src/commands/signtx/operations/stx_op_p2pk.c:stx_operation_p2pk_should_show_output_confirm_screen", "src/commands/signtx/stx_ui.c:ui_stx_operation_output_confirm_action"]}
{"id": "C03", "title": "A signature needs two explicit approvals in the same session", "statement": "The device emits a signature only as the direct response to the user approving the transaction-confirmation screen, and only if in the same signing session the user had earlier approved the start-signing screen (path and application), and since then no error, rejection or restart happened.", "quantifier": "every finite history of host commands and user decisions since power-on", "why_tests_cant": "absence of a bypass over all histories cannot be shown by examples", "anchors": ["src/commands/signtx/stx_ui.c:ui_stx_operation_approve_reject", "src/commands/signtx/stx_ui.c:ui_stx_operation_execute_action", "src/commands/signtx/operations/stx_op_p2pk.c:ui_stx_operation_p2pk_send_response"]}
{"id": "C04", "title": "Amounts on the final screen are exact", "statement": "On the transaction confirmation screen: 'Transaction Amount' equals (sum of the values of all accepted inputs) - (sum of values of the change outputs) - (sum of values of the fee outputs), 'Transaction Fee' equals the sum of the fee outputs, and for every token id the shown burn/mint amount equals (sum over accepted input frames) - (sum over output tokens), as mathematical integers, with no wrap-around.", "quantifier": "every finite history of host commands leading to the confirmation screen, all 64-bit amounts", "why_tests_cant": "sums over unboundedly many inputs/outputs at the extremes of 64-bit arithmetic", "anchors": ["src/commands/signtx/stx_amounts.c", "src/commands/signtx/stx_amounts.h", "src/common/safeint.h", "src/commands/signtx/stx_ui.c:ui_stx_display_tx_state"]}
{"id": "C05", "title": "Checked 64-bit arithmetic is exact or refused", "statement": "The checked add/sub helpers on uint64 and on (int64, uint64) succeed exactly when the mathematical result is representable in the result type, and then return exactly it; on failure the destination is unchanged.", "quantifier": "all 2^64 x 2^64 operand pairs", "why_tests_cant": "2^128 pairs; boundary cases around INT64_MIN/UINT64_MAX are easily missed by examples", "anchors": ["src/common/safeint.h"]}
{"id": "C06", "title": "At most one signature per signing session, each with its own nonce", "statement": "Between two signatures released by the device there is always a new accepted start-signing command, which draws a fresh ephemeral key; after a signature (or any failure/rejection) the ephemeral key and the whole signing context are erased, so one commitment is never used for two challenges.", "quantifier": "every finite history of host commands, user decisions and random draws since power-on", "why_tests_cant": "nonce reuse across some rare interleaving leaks the private key; absence must hold for all histories", "anchors": ["src/commands/signtx/operations/stx_op_p2pk.c:ui_stx_operation_p2pk_send_response", "src/ergo/schnorr.c", "src/context.c:app_set_current_command"]}
{"id": "C07", "title": "Released signatures verify", "statement": "Every released 56-byte signature c||z satisfies the Ergo P2PK Schnorr verification: with P the public key of the session's secret, recomputing w = zG - cP and hashing prefix||P||suffix||w||message yields a digest whose first 24 bytes are c; z < group order.", "quantifier": "all secrets, ephemeral keys, messages and hash functions; any cyclic group with the group order of secp256k1", "why_tests_cant": "algebraic identity over 2^256-size domains", "anchors": ["src/ergo/schnorr.c:ergo_secp256k1_schnorr_p2pk_sign_init", "src/ergo/schnorr.c:ergo_secp256k1_schnorr_p2pk_sign_finish"]}
{"id": "C08", "title": "The signature is made with the key of the path the user approved", "statement": "The secret used for the commitment and for the response is the one derived for the BIP-32 path shown on the start-signing screen and again on the transaction confirmation screen, and that path is m/44'/429'/account'/{0,1}/index(/non-hardened...).", "quantifier": "every finite history since power-on", "why_tests_cant": "the key is derived twice, in different commands, from state the host can try to modify in between", "anchors": ["src/commands/signtx/operations/stx_op_p2pk.c:stx_operation_p2pk_init", "src/commands/signtx/operations/stx_op_p2pk.c:ui_stx_operation_p2pk_show_tx_screen"]}
{"id": "C09", "title": "Only authenticated input frames are counted", "statement": "An input frame is accepted in a signing session only if its 16-byte tag is the truncated HMAC, under this power cycle's session key, of exactly the frame bytes; hence (if no valid tag can be produced without the device) every input id, value and token amount that enters the displayed totals was emitted by this device's attest command since power-on.", "quantifier": "every finite history of host commands since power-on, every HMAC function; the last part for every history in which every accepted frame was previously emitted by the device", "why_tests_cant": "adversarial frames; needs quantification over all byte strings", "anchors": ["src/commands/signtx/stx_handler.c:handle_input_frame", "src/helpers/input_frame.c", "src/commands/attestinput/ainpt_response.c:send_response_attested_input_frame"]}
{"id": "C10", "title": "Attested frames carry the whole box and nothing else", "statement": "For a box with n tokens (n <= 20) the device announces max(1, ceil(n/4)) frames; frame i contains the box id, the frame count, i, the box value, and tokens 4i..min(4i+4,n)-1 in order with their amounts, plus the tag; concatenating the tokens of all frames gives the box's token list; each frame fits a response APDU; an index out of range is refused.", "quantifier": "all boxes with any number of tokens up to the limit, all frame indices", "why_tests_cant": "all combinations of counts and indices with arbitrary contents, and correctness of 8-bit index arithmetic", "anchors": ["src/commands/attestinput/ainpt_response.c", "src/helpers/input_frame.h"]}
{"id": "C11", "title": "A frame emitted by the device is parsed back identically when signing", "statement": "Feeding a device-emitted frame (followed by the context-extension length for frame 0) to a signing session of the same power cycle passes the authenticity check and yields exactly the box id, frame count, index, value and token list it was built from.", "quantifier": "all boxes, all frames, all session keys and HMAC functions", "why_tests_cant": "round trip over arbitrary values, including the 8-bit length arithmetic of the parser", "anchors": ["src/commands/signtx/stx_handler.c:handle_input_frame", "src/helpers/input_frame.c:input_frame_data_length", "src/commands/attestinput/ainpt_response.c"]}
{"id": "C12", "title": "The attested box id is the hash of the canonical box bytes", "statement": "When an attestation completes, the reported box id is the hash of: VLQ(value) || ergo tree || VLQ(height) || token count || (token id || VLQ amount)* || registers (or a zero byte) || transaction id || VLQ(output index), for exactly the data sent by the host, independent of chunking.", "quantifier": "every finite history of attest commands, every chunking, any hash function", "why_tests_cant": "streaming hash over arbitrary chunk sequences", "anchors": ["src/commands/attestinput/ainpt_handler.c", "src/ergo/tx_ser_box.c:ergo_tx_serializer_box_id_hash"]}
{"id": "C13", "title": "An attested box id binds the attested value and tokens", "statement": "If the hash is collision free, two completed attestations with the same box id carry the same value and the same token list. (FALSE for tokens: the tree is hashed without its length, so the host can move the tree/height/token boundaries. Proved: value is bound; tokens are bound when the same tree length was declared; negation for tokens in general with a concrete pair of boxes.)", "quantifier": "all pairs of boxes accepted by the attest command, any injective hash", "why_tests_cant": "quantifies over all pairs of box descriptions; injectivity of an encoding is not testable", "anchors": ["src/ergo/tx_ser_box.c", "src/commands/attestinput/ainpt_handler.c"]}
{"id": "C14", "title": "Attestation refuses duplicate tokens and too many tokens", "statement": "In a completed attestation all token ids are pairwise different, their number equals the declared number and is at most 20.", "quantifier": "every finite history of attest commands", "why_tests_cant": "adversarial token lists across arbitrarily many chunks", "anchors": ["src/commands/attestinput/ainpt_handler.c:box_token_cb"]}
{"id": "C15", "title": "Attestation frames are released only after consent and a complete box", "statement": "The device returns an attested frame only in an attestation session in which the user approved the request (or the request carried the non-zero token of an application approved earlier in this power cycle) and the complete declared box has been received.", "quantifier": "every finite history of host commands and user decisions since power-on", "why_tests_cant": "no-bypass claim over all histories", "anchors": ["src/commands/attestinput/ainpt_handler.c", "src/commands/attestinput/ainpt_ui.c"]}
{"id": "C16", "title": "Public keys and addresses are exported only with consent", "statement": "The device returns an extended public key or an address only as the response to the user approving that request, or when the request carries a non-zero application token equal to the token of the most recent approval in this power cycle. A request to display an address is never answered without the user seeing it.", "quantifier": "every finite history of host commands and user decisions since power-on", "why_tests_cant": "no-bypass claim over all histories", "anchors": ["src/commands/extpubkey/epk_handler.c", "src/commands/extpubkey/epk_ui.c", "src/commands/deriveaddress/da_handler.c", "src/commands/deriveaddress/da_ui.c", "src/helpers/session_id.h:is_known_application"]}
{"id": "C17", "title": "Only Ergo wallet paths are ever used", "statement": "Every key the device derives for the host is at m/44'/429'/...: exported extended keys only at paths of length >= 3 whose further components are all hardened; addresses, signing keys and change keys only at m/44'/429'/a'/{0,1}/i(/non-hardened...) with length >= 5 (at most 10).", "quantifier": "all byte strings a host can send as a path, every history", "why_tests_cant": "2^320 paths; acceptance set must be characterised exactly", "anchors": ["src/common/bip32_ext.c:bip32_path_validate", "src/commands/extpubkey/epk_handler.c", "src/commands/deriveaddress/da_handler.c", "src/commands/signtx/stx_handler.c:bip32_public_key"]}
{"id": "C18", "title": "While the user is being asked, the host cannot change anything", "statement": "While an approval flow is on screen, every well-formed command except get-version/get-name is answered with 'busy' and the device state (context, screen, session, application token) is unchanged; version/name answer normally and change nothing.", "quantifier": "every reachable state with a flow on screen and every command", "why_tests_cant": "must hold for every state and every command byte string (time-of-check/time-of-use between screen and action)", "anchors": ["src/context.h:app_is_ui_busy", "src/apdu_dispatcher.c", "src/ui/ui_main.h:ui_display_screens"]}
{"id": "C19", "title": "A failed command leaves nothing behind", "statement": "If an attest or sign command is answered with an error status other than 'busy' (and other than wrong P1/P2), the whole session context is erased: current command none, no flow on screen, and every following attest/sign continuation command is answered with an error until a new session is started.", "quantifier": "every reachable state, every command and payload", "why_tests_cant": "must hold for each of the many error exits, in every state", "anchors": ["src/commands/attestinput/ainpt_handler.c:handler_err", "src/commands/signtx/stx_handler.c:handler_err", "src/commands/signtx/operations/stx_op_p2pk.c:handler_err"]}
{"id": "C20", "title": "Continuation commands need the current session id", "statement": "Attest/sign continuation commands with a session id different from the one returned when the session was started are refused and kill the session; session ids are never 0; a session started by one command kind can never be continued by the other.", "quantifier": "every reachable state, every session byte and payload", "why_tests_cant": "all interleavings of the two protocols", "anchors": ["src/helpers/cmd_macros.h", "src/helpers/session_id.h", "src/commands/signtx/stx_handler.c", "src/commands/attestinput/ainpt_handler.c"]}
{"id": "C21", "title": "No confusion between the overlaid contexts", "statement": "No command or user action ever reads, as one kind of context, memory that was last written as another kind: neither the per-command context union, nor the input/output serializer union, nor the screen-data union inside a signing session.", "quantifier": "every finite history of host commands and user decisions since power-on", "why_tests_cant": "memory-safety style invariant over all histories", "anchors": ["src/context.h", "src/ergo/tx_ser_full.h", "src/commands/signtx/operations/stx_op_p2pk.h", "src/commands/signtx/stx_output.h"]}
{"id": "C22", "title": "Malformed and unknown commands change nothing", "statement": "Commands with a wrong class byte, unknown instruction or P1/P2 outside the documented values (as checked by the dispatcher) are answered with the documented status word and leave the device state unchanged.", "quantifier": "every reachable state and every command", "why_tests_cant": "all byte combinations in all states", "anchors": ["src/apdu_dispatcher.c", "src/app_main.c"]}
{"id": "C23", "title": "Rejecting releases nothing and ends the operation", "statement": "When the user rejects any approval flow the only response is 'denied' with no data, the context is erased, and the stored application token is unchanged.", "quantifier": "every reachable state with a flow on screen", "why_tests_cant": "all flows in all reachable states", "anchors": ["src/commands/signtx/stx_ui.c", "src/commands/attestinput/ainpt_ui.c", "src/commands/extpubkey/epk_ui.c", "src/commands/deriveaddress/da_ui.c"]}
{"id": "C24", "title": "The application token changes only by user approval", "statement": "The stored application token is 0 at power-on and changes only when the user approves a flow, to the token sent with that request; the session key never changes within a power cycle.", "quantifier": "every finite history since power-on", "why_tests_cant": "history invariant", "anchors": ["src/context.c", "src/context.h:app_set_connected_app_id"]}
{"id": "C25", "title": "VLQ writing and reading round-trips", "statement": "Writing any uint64 with the VLQ writer produces between 1 and 10 bytes; reading those bytes followed by anything returns the same value and consumes exactly them; the same for the u16, u32 and i64 variants (any value) and i16.", "quantifier": "all 2^64 values and all trailing bytes", "why_tests_cant": "2^64 values", "anchors": ["src/common/gve.c", "src/common/gve.h", "src/common/zigzag.h"]}
{"id": "C26", "title": "VLQ encodings are unique and prefix-free", "statement": "Two different uint64 values never have encodings one of which is a prefix of the other, so concatenated VLQ fields are unambiguous; the encoding is the shortest one (no superfluous trailing zero group).", "quantifier": "all pairs of 64-bit values", "why_tests_cant": "pairs of 64-bit values", "anchors": ["src/common/gve.c:gve_put_u64"]}
{"id": "C27", "title": "Signed 32-bit VLQ round-trips", "statement": "Writing any int32 with the signed writer and reading it with the signed reader returns the same value. (FALSE: for values outside [-2^30, 2^30) the zigzag step sign-extends to 64 bits and the reader refuses the result. Proved: the negation, exactly which values fail, and the round trip for the others.)", "quantifier": "all 2^32 values", "why_tests_cant": "unit tests use a handful of values and miss half of the domain", "anchors": ["src/common/zigzag.h:zigzag_encode_i32", "src/common/gve.h:gve_put_i32", "src/common/gve.c:gve_get_i32"]}
{"id": "C28", "title": "The VLQ reader rejects overlong or unterminated input", "statement": "The u64 reader accepts only byte strings produced by the writer (canonical, terminated, fitting 64 bits). (FALSE: ten bytes with continuation bits set are accepted, superfluous zero groups and dropped high bits are accepted. Proved: negations; and that the reader never consumes more than 10 bytes, never reads past the end, and returns the sum of the 7-bit groups mod 2^64.)", "quantifier": "all byte strings", "why_tests_cant": "all byte strings", "anchors": ["src/common/gve.c:gve_get_u64"]}
{"id": "C29", "title": "Chunking does not matter", "statement": "For a box (in attestation or as a transaction output), splitting the tree, token and register data into chunks in any way the device accepts leads to the same hashed bytes, the same counters and the same completion point as sending each part at once; likewise for context extensions, data inputs and the token table of a transaction.", "quantifier": "all data and all ways of splitting it that are accepted", "why_tests_cant": "exponentially many splittings", "anchors": ["src/ergo/tx_ser_box.c", "src/ergo/tx_ser_input.c", "src/ergo/tx_ser_full.c", "src/ergo/tx_ser_table.c"]}
{"id": "C30", "title": "Serializer errors are sticky and counts are exact", "statement": "Once the transaction serializer reports an error, every later operation on it reports an error and it never becomes finished; it becomes finished only after exactly the declared numbers of inputs, data inputs and tokens, and exactly the declared number of completed outputs.", "quantifier": "all finite sequences of serializer operations", "why_tests_cant": "sequences of arbitrary length", "anchors": ["src/ergo/tx_ser_full.c"]}
{"id": "C31", "title": "Size limits are enforced", "statement": "More than 20 tokens in a box or transaction table, trees or registers over 32768 bytes, context extensions of 1 or more than 32768 bytes, zero inputs or zero outputs, more data than declared, and short non-final tree chunks are all refused.", "quantifier": "all declared sizes, all data", "why_tests_cant": "full ranges of 32-bit sizes", "anchors": ["src/ergo/tx_ser_box.c:ergo_tx_serializer_box_init", "src/ergo/tx_ser_input.c:ergo_tx_serializer_input_init", "src/ergo/tx_ser_full.c:ergo_tx_serializer_full_init", "src/ergo/tx_ser_table.c"]}
{"id": "C32", "title": "Output address shown is the address of the output script", "statement": "For an output sent as a raw tree that gets confirmed, the screen shows 'Address' with the P2PK address of key K and the session network iff the complete tree is 00 08 cd || K (K a compressed key starting 02/03), the P2SH address of the embedded hash iff the tree is the 44-byte P2SH template, and otherwise the P2SH-style address of the first 24 bytes of the hash of the complete tree.", "quantifier": "all trees up to 32768 bytes, all accepted chunkings", "why_tests_cant": "all byte strings and splittings", "anchors": ["src/commands/signtx/stx_output.c:stx_output_info_add_tree_chunk", "src/commands/signtx/stx_ui.c:output_info_print_address", "src/ergo/ergo_tree.c"]}
{"id": "C33", "title": "Output tokens shown are the output's tokens", "statement": "The confirmation screens of an output list, for every token of the output, its id and exact amount. (FALSE for tokens with amount 0, which are skipped, and for change outputs, for which only the path is shown. Proved: both negations; for all other outputs every token with non-zero amount is listed exactly once with its exact amount, and no other.)", "quantifier": "all outputs with any tokens", "why_tests_cant": "all token lists up to the limit, arbitrary amounts", "anchors": ["src/commands/signtx/stx_output.c:stx_output_info_add_token", "src/commands/signtx/stx_output.c:stx_output_info_used_token_index", "src/commands/signtx/stx_ui.c:ui_stx_display_output_state"]}
{"id": "C34", "title": "Change is hidden only if it goes back to the same account", "statement": "A change output that is not shown to the user pays to an address of the account being used for signing (same m/44'/429'/account'), or to a path the user has just approved as change. (FALSE: path comparison looks at 3 resp. 5 bytes instead of path components, so change to any account is hidden, and after one approved change any other standard change path is hidden. Proved: negation for both rules with concrete paths; and the exact set of hidden change paths.)", "quantifier": "all signing paths, all change paths, every history of approvals", "why_tests_cant": "the defect needs paths differing in higher bytes/components; tests with the same account pass", "anchors": ["src/common/bip32_ext.h:bip32_path_is_equal", "src/common/bip32_ext.h:bip32_path_same_account", "src/commands/signtx/operations/stx_op_p2pk.c:stx_operation_p2pk_should_show_output_confirm_screen"]}
{"id": "C35", "title": "Change outputs pay to this device", "statement": "The script hashed for a change output is always the P2PK script 00 08 cd || compressed public key derived by this device for the given path, and the path is an Ergo address path; the fee output script is always the 105-byte miners-fee contract; no host-supplied tree bytes can be part of such an output.", "quantifier": "every finite history of host commands in a signing session", "why_tests_cant": "the host can try to mix tree chunks and change/fee commands in any order", "anchors": ["src/commands/signtx/stx_handler.c:handle_output_tree_change", "src/ergo/tx_ser_box.c:ergo_tx_serializer_box_add_change_tree", "src/ergo/tx_ser_box.c:ergo_tx_serializer_box_add_miners_fee_tree", "src/commands/signtx/stx_output.c"]}
{"id": "C36", "title": "Shown BIP-32 path text identifies the path", "statement": "The path text shown to the user determines the path completely: two different paths never produce the same text; a path whose text does not fit the buffer is refused instead of being shown truncated. (FALSE for address paths of 8 or more components: the text is cut silently after 59 characters when the last component is not hardened. Proved: the negation with two concrete signing paths; account paths are shown completely or refused; address paths of up to 7 components are shown completely and the text determines the path; in every case the text shown is the full text cut to the buffer.)", "quantifier": "all paths of 1..10 components", "why_tests_cant": "injectivity over all paths", "anchors": ["unit-tests/utils/bip32.c:bip32_path_format", "src/ui/ui_bip32_path.c"]}
{"id": "C37", "title": "Shown base58 address identifies the address bytes", "statement": "Base58 text is the positional base-58 representation (leading zero bytes as leading '1'), and two different byte strings never have the same text; output never exceeds the given buffer.", "quantifier": "all byte strings up to the supported length", "why_tests_cant": "injectivity / big-number arithmetic on arbitrary bytes", "anchors": ["unit-tests/utils/base58.c:base58_encode", "src/commands/signtx/stx_ui.c:format_b58_id", "src/commands/deriveaddress/da_ui.c"]}
{"id": "C38", "title": "Addresses have the Ergo format", "statement": "An address returned or shown is (type+network) || content || first 4 bytes of the hash of the preceding bytes, with length 38 for P2PK and 29 for P2SH; generation fails exactly for network ids above 252; the compressed and uncompressed key variants give the same address, and distinct (network, compressed key) give distinct addresses.", "quantifier": "all keys, networks and hash functions", "why_tests_cant": "all keys and networks", "anchors": ["src/ergo/address.c", "src/ergo/network_id.h"]}
{"id": "C39", "title": "Buffer writing never leaves the buffer", "statement": "Every write operation on a read/write buffer changes only bytes inside the allocated area, refuses (changing nothing) when the space is insufficient, and what was written is read back identically in the same endianness; reads never touch bytes past the written size. (FALSE for sequences that use rw_buffer_seek_write_set/_end to put the writing position behind the reading position: reads then succeed without data and leave the array. The app never calls these; proved for all sequences of the other operations.)", "quantifier": "all buffers, offsets and values; all sequences of operations", "why_tests_cant": "all sequences of operations with arbitrary offsets, including wrap-around of size_t", "anchors": ["src/common/rwbuffer.c", "src/common/rwbuffer.h", "src/common/buffer_ext.c", "unit-tests/utils/buffer.c"]}
{"id": "C40", "title": "The user can page through every screen, and the screens never overflow", "statement": "Every flow shown uses at most the 8 available screen slots; the number of pages equals the number of items to be shown (address, value, 2 per listed token; path, amount, fee, 2 per non-zero token); paging right from the first page visits every page in order, paging never uses an index outside the pages, and every page renders an item. (FALSE in two cases for 'every page renders': change to a path too long for the screen, where the first button press ends the session with an error, and a balance of -2^63. Proved: both negations; everything else.)", "quantifier": "all reachable flows, any sequence of left/right key presses", "why_tests_cant": "all token counts and navigation sequences", "anchors": ["src/ui/ui_dynamic_flow.c", "src/ui/ui_main.h", "src/commands/signtx/stx_ui.c"]}
{"id": "C41", "title": "Shown token id identifies the token", "statement": "Two different token ids are never shown with the same text. (FALSE: the middle of the hex text is cut out on all devices. Proved: negation; the text determines exactly the first and last 26 (Nano S: 7) hex digits.)", "quantifier": "all pairs of token ids", "why_tests_cant": "pairs of 256-bit ids", "anchors": ["src/commands/signtx/stx_ui.c:id_string_remove_middle", "src/commands/signtx/stx_ui.c:format_hex_id"]}
{"id": "C42", "title": "Frame parsing stays inside the command data", "statement": "For every command payload, the frame length computed from the (host-controlled) token count never makes the device authenticate, compare or parse bytes outside the payload, and frames with a token count for which the 8-bit length computation wraps can not be accepted with tokens outside the authenticated bytes.", "quantifier": "all payloads of 0..255 bytes, all token count bytes", "why_tests_cant": "all payloads; 8-bit wrap-around", "anchors": ["src/helpers/input_frame.c", "src/commands/signtx/stx_handler.c:handle_input_frame"]}
{"id": "C43", "title": "The same input cannot be counted twice", "statement": "Within one signing session the same attested box is accepted as input at most once. (FALSE: duplicates are accepted and counted; proved by a concrete session. What is proved: with no forged tags, the inputs are one for one boxes attested by the device, each counted as often as its id occurs among the inputs that are signed; so if the signed input ids are distinct, the input totals are sums over distinct attested boxes.)", "quantifier": "every finite history in a signing session", "why_tests_cant": "requires a search over histories; tests never send duplicates", "anchors": ["src/commands/signtx/stx_handler.c:handle_input_frame", "src/ergo/tx_ser_full.c:ergo_tx_serializer_full_add_input"]}
{"id": "C44", "title": "The signed bytes have one reading only", "statement": "The outputs a node reads from the signed bytes are the outputs described to the device. (FALSE even without abandoned outputs: register bytes are passed through unparsed, so they can contain a complete further output and swallow the following ones. Proved: negation with a concrete session; and that the reading is unique when trees, registers and context extensions are self-delimiting, i.e. prefix-free.)", "quantifier": "all sessions without abandoned outputs", "why_tests_cant": "ambiguity of an encoding over all data", "anchors": ["src/ergo/tx_ser_box.c:ergo_tx_serializer_box_add_registers", "src/ergo/tx_ser_input.c:ergo_tx_serializer_input_add_context_extension"]}
{"id": "C45", "title": "Only the documented data lengths are accepted", "statement": "Commands with fewer data bytes than their fixed fields are refused with 'not enough data', commands with extra bytes with 'too much data'. (FALSE for get-version/get-name, change-tree, confirm and input-frame commands, which ignore trailing bytes; proved exactly which commands check.)", "quantifier": "all payloads for all commands in all reachable states", "why_tests_cant": "all lengths for all commands in all states", "anchors": ["src/helpers/cmd_macros.h:CHECK_PARAMS_FINISHED", "src/commands/signtx/stx_handler.c", "doc/APDU.md"]}
{"id": "C46", "title": "Secrets do not outlive the operation", "statement": "After a signature, an error, a rejection or a new command, the device state contains no ephemeral key, no unfinished transaction data and no key material of the previous operation (the context equals the all-zero context).", "quantifier": "every reachable state and every event ending an operation", "why_tests_cant": "all end points of all operations", "anchors": ["src/context.c:app_set_current_command", "src/commands/signtx/operations/stx_op_p2pk.c"]}
{"id": "C47", "title": "Minting amounts on screen are the exact absolute values", "statement": "For a negative token balance the screen shows its exact absolute value. (FALSE at the extreme -2^63, which a host can reach and where the code negates INT64_MIN: undefined behaviour in C. Proved: reachability of that state and exactness for all other values.)", "quantifier": "all reachable token balances", "why_tests_cant": "needs the single value out of 2^64", "anchors": ["src/commands/signtx/stx_ui.c:ui_stx_display_tx_state", "src/common/safeint.h:checked_sub_i64"]}
{"id": "C48", "title": "Exactly the fitting signing commands are accepted", "statement": "In an open signing session with nothing on the screen, a continuation command with the session id is accepted (success status or a question to the user) if and only if it fits what was accepted before: right place in the order (numbers, token table, inputs frame by frame and their extensions, data inputs, outputs part by part, confirmation), right lengths, numbers within the announced counts and the documented limits, valid frame tag, sums representable, tokens not repeated, address path for change. Everything else is answered with an error status. In particular no valid transaction data is refused. (A session also ends, although the error is not one that ends sessions, when an attestation start is refused for its P2 value.)", "quantifier": "every reachable state with an open session, every subcommand and every payload of up to 255 bytes", "why_tests_cant": "both directions for all payloads after all histories", "anchors": ["src/commands/signtx/stx_handler.c", "src/commands/signtx/operations/stx_op_p2pk.c", "src/ergo/tx_ser_full.c", "src/ergo/tx_ser_box.c", "src/ergo/tx_ser_input.c"]}
{"id": "C49", "title": "The user is asked about exactly the outputs that need a decision", "statement": "When an accepted command completes an output of the transaction, the device puts the output on the screen and waits if and only if the output is not accepted automatically: it is neither a miner-fee output without token amounts nor change of one of the two automatic classes (address window of the signing path; after the user's last approval was for change). A part that does not complete the output, and every automatic output, is answered with success at once, so no output is shown twice and none that should be shown is skipped.", "quantifier": "every reachable state with an open session and nothing on the screen, every output part command and payload", "why_tests_cant": "depends on the whole history of the session (last approved change) and all script, token and register combinations", "anchors": ["src/commands/signtx/operations/stx_op_p2pk.c:stx_operation_p2pk_should_show_output_confirm_screen", "src/commands/signtx/stx_handler.c:show_output_screen_if_needed", "src/commands/signtx/stx_ui.c:ui_stx_operation_output_confirm_action"]}
{"id": "C50", "title": "A valid signing session can always be completed", "statement": "From every reachable state with nothing on the screen: if the start of signing is as documented, the following commands fit one after the other and describe a whole transaction, then the device accepts all of them when the user approves the start on its first screen, approves each question about an output (going left twice to Approve and pressing both buttons) and approves the confirmation. The final answer is a 24-byte challenge, the hash prefix over commitment and the serialization of exactly the described transaction, and the 32-byte response for the key of the path; the only exception is a hash whose first 24 bytes are zero, which gives the signing-failed status. No earlier session, question or error can prevent it.", "quantifier": "every reachable state, every start request, every list of fitting commands of any length, every confirmation payload", "why_tests_cant": "availability for transactions of any shape after any history", "anchors": ["src/commands/signtx/stx_handler.c", "src/commands/signtx/stx_ui.c", "src/commands/signtx/operations/stx_op_p2pk.c", "src/ergo/schnorr.c:ergo_secp256k1_schnorr_p2pk_sign_finish"]}
{"id": "C51", "title": "Exactly the documented start commands are accepted", "statement": "With nothing on the screen, a command that starts an operation (extended public key, address, attestation, signing) with allowed P1/P2 is answered at once with success iff its data is as documented (exact length, path of the right kind with 1 to 10 components, supported network, limits on sizes, key derivable, for signing one usable random scalar among the first hundred), a session id can be drawn if one is needed, and it is an export or attestation carrying the nonzero application token of the last approval; it is put to the user iff its data is as documented, an id can be drawn, it does not carry that token, and its path fits the 59 characters of the screen; it stays without an answer iff its data is as documented and the random generator only gives zeros as session ids; and it is refused with an error status in all other cases.", "quantifier": "every reachable state with nothing on the screen, every start command with up to 255 data bytes, all random values", "why_tests_cant": "both directions for all payloads, paths and histories", "anchors": ["src/commands/extpubkey/epk_handler.c", "src/commands/deriveaddress/da_handler.c", "src/commands/attestinput/ainpt_handler.c", "src/commands/signtx/stx_handler.c:handle_init_p2pk", "src/common/bip32_ext.c", "src/helpers/session_id.h"]}
{"id": "C52", "title": "Exactly the fitting attestation commands are accepted, with determined answers", "statement": "In an open attestation session (since its opening no start of an attestation was refused for a nonzero P2), a tree, token, register or frame command with the session's id is answered with success if and only if it fits after what was described: tree bytes within the declared size and in chunks of at least 255 bytes except for the last; whole 40-byte tokens with ids that are pairwise new, within the declared number and after the tree; register bytes within the declared size and after all tokens; a one-byte frame number below the number of frames of a complete box. The answer is then determined by the session: nothing, the number of frames when the box became complete, or the frame. Every other such command gets an error status; nothing is put on the screen and no command is left without an answer.", "quantifier": "every reachable state with an open attestation session, every such command with up to 255 data bytes", "why_tests_cant": "both directions for all payloads after every history of the session", "anchors": ["src/commands/attestinput/ainpt_handler.c", "src/commands/attestinput/ainpt_response.c", "src/ergo/tx_ser_box.c"]}
{"id": "C53", "title": "A box within the limits can always be attested completely", "statement": "From every reachable state with nothing on the screen: if the start of an attestation is as documented and a session id can be drawn, the session opens, at once if it carries the nonzero application token of the last approval and otherwise when the user goes left twice to Approve and presses both buttons. Then all commands that fit one after the other are accepted, and when they describe a complete box all its frames can be fetched in order, each of them being the frame of exactly this box with its tag. No earlier session, question or error can prevent it.", "quantifier": "every reachable state, every start request, every list of fitting commands", "why_tests_cant": "availability for boxes of any shape after any history", "anchors": ["src/commands/attestinput/ainpt_handler.c", "src/commands/attestinput/ainpt_ui.c", "src/commands/attestinput/ainpt_response.c"]}
{"id": "C54", "title": "The frames of an attested box can be spent, and only as that box", "statement": "After a box has been attested, its frames can be presented in any later signing session since power-on: in order, the first one with the size of the context extension, they are all accepted if and only if the token table has been received, the sums of values (below 2^64) and of each token (below 2^63) over the inputs including this box can be represented, there are at most 20 different tokens, one more input is expected, all inputs before are complete, and the size of the context extension is not 1 and at most 32768. They then describe exactly one input with the id, the value and all tokens of the attested box.", "quantifier": "every attested box, every later moment of every execution, every described transaction", "why_tests_cant": "the two commands live in different handlers with different serializers; agreement for all boxes, token counts and histories", "anchors": ["src/commands/attestinput/ainpt_response.c", "src/helpers/input_frame.c", "src/commands/signtx/operations/stx_op_p2pk.c"]}
{"id": "C55", "title": "Every transaction within explicit limits can be signed", "statement": "From every reachable state with nothing on the screen: for every transaction as a wallet has it (boxes to be spent with their context extensions, data inputs, token table, outputs with raw, fee or change script) within explicit limits on counts, sizes, amounts and sums, the documented commands are all accepted. Each box is attested with one approval and the device sends all its frames; the signing session is opened with one approval; every command that carries a part of the transaction is accepted, at once or after an approval of an output; and the approved confirmation is answered with a Schnorr response for the key of the path over the serialization of exactly this transaction. The only exception is that the first 24 bytes of the hash are all zero.", "quantifier": "every reachable state, every transaction within the limits, every path and random values", "why_tests_cant": "availability and agreement of wallet and device for transactions of any shape after any history", "anchors": ["src/commands/attestinput/ainpt_handler.c", "src/commands/signtx/stx_handler.c", "src/commands/signtx/operations/stx_op_p2pk.c", "src/ergo/tx_ser_full.c", "src/ergo/schnorr.c"]}
{"id": "C56", "title": "The characters on the screens are the values, complete and legible", "statement": "In every reachable state, drawing any dynamic screen of the flow on display writes only within the arrays of 20 and 70 characters and leaves in them, with a terminator, the complete title and the complete text of the page; a screen that cannot be drawn is refused with its status word. When the user is asked to approve a transaction, the second and third screen hold the amount leaving the wallet and the fee in ERG with exactly nine decimals, and for every token whose amounts differ (other than by 2^63, see C47) one screen holds the id and the next \"Minting: \" or \"Burning: \" and the exact decimal difference. The path screen (60 characters) and the application screen (11 characters) hold the complete text. Two different numbers, or numbers of different kinds, never have the same text.", "quantifier": "every execution, every screen, every amount (all 64-bit values), every path and application id", "why_tests_cant": "2^64 amounts with leading zeros, decimal point and unit written in place into fixed arrays; truncation or a missing terminator shows only for particular lengths", "anchors": ["src/commands/signtx/stx_ui.c", "src/commands/signtx/operations/stx_op_p2pk.c", "src/ui/ui_application_id.c", "src/ui/ui_bip32_path.c", "src/ui/ui_dynamic_flow.c"]}
{"id": "C57", "title": "Every command gets exactly one reply, of the documented form", "statement": "In every execution the number of commands received equals the number of replies sent, plus one while a question is on display. A command is left unanswered exactly when it puts a question on display; a button press sends a reply exactly when it takes the question down. A reply with a status word other than 0x9000 carries no data. A reply 0x9000 carries exactly as many bytes as doc/*.md documents for the command it answers: version and name; 65 for an extended public key; 38 or 0 for an address; 1 for the start of an attestation or a signing session, at most 1 for its chunks, 59 plus 40 per token for a frame; 0 for the chunks of a transaction and 56 for the signature. All replies fit in 255 bytes.", "quantifier": "every execution, every command and button press", "why_tests_cant": "double or missing replies come from the interplay of the handlers, the screens and errors while drawing, in arbitrary order", "anchors": ["src/helpers/response.h", "src/app_main.c", "src/ui/ui_approve_reject.c", "src/ui/ui_dynamic_flow.c", "doc/INS-20-ATTEST-BOX.md", "doc/INS-21-SIGN-TRANSACTION.md"]}
{"id": "C58", "title": "The user can always refuse", "statement": "In every reachable state with a question on display there are at most 44 presses of the left and right buttons, after which pressing both buttons answers the question with 0x6985 and leaves the device in the menu with the session erased and the connected application unchanged. The presses are fixed beforehand: the result is the same whatever commands the host sends in between, and it does not matter whether other pages of the question can be drawn.", "quantifier": "every execution, every screen of every question, every interleaving of host commands", "why_tests_cant": "a screen from which no way leads to Reject, or one on which a page that cannot be drawn lies on the way, shows only for particular transactions and positions", "anchors": ["src/ui/ui_dynamic_flow.c", "src/ui/ui_approve_reject.c", "src/commands/signtx/stx_ui.c", "src/context.h"]}
{"id": "C59", "title": "Nothing but the signature depends on private and ephemeral keys", "statement": "Take any execution and change the private keys (keeping the public keys) and the random values for ephemeral keys. Then there is an execution with the same commands and button presses in which every question, every screen and every reply is the same, except for the reply sent when the user approves the final question of a signing session. For that reply: with the message and the private key fixed, every response value occurs for exactly one ephemeral key, so that a uniformly chosen ephemeral key hides the private key.", "quantifier": "every execution, every pair of private keys with equal public keys, every choice of random values", "why_tests_cant": "noninterference compares pairs of executions with different secrets; a leak through a status word, a screen or a length shows only in such pairs", "anchors": ["src/commands/signtx/operations/stx_op_p2pk.c", "src/ergo/schnorr.c", "src/commands/signtx/stx_handler.c", "src/helpers/crypto.c"]}
{"id": "C60", "title": "No array that the app fills is too small", "statement": "Every scratch array through which numbers are hashed (10, 4 and 1 bytes), every address and script array (38, 29, 36 bytes), and every array in which a reply is put together (65 and 38 bytes, and 235 of the transport's bytes for attested frames including the 32 bytes stored by the tag function) is large enough for every value: the functions never fail with a buffer error, hand on exactly the specified bytes, and read and write no memory outside the array.", "quantifier": "every value, key, address, box with up to 255 tokens, frame index, every memory content and array address; every execution for the frames sent", "why_tests_cant": "the bound depends on the largest encodings (10-byte numbers, full frames) and on memory next to the array, which tests do not observe", "anchors": ["src/common/gve.c:gve_put_u64", "src/ergo/tx_ser_box.c:add_height_and_token_count", "src/ergo/tx_ser_box.c:ergo_tx_serializer_box_add_tokens", "src/ergo/tx_ser_full.c:hash_u16", "src/ergo/address.c:_ergo_address_from_pubkey", "src/ergo/ergo_tree.c:ergo_tree_generate_p2pk", "src/commands/attestinput/ainpt_response.c:send_response_attested_input_frame", "src/commands/extpubkey/epk_response.c:send_response_extended_pubkey", "src/commands/deriveaddress/da_response.c:send_response_address"]}
{"id": "C61", "title": "The array of screens always holds exactly the question being asked", "statement": "The global array the display reads from (nine entries, shared by all questions and the menu) is never written out of bounds; no question is refused or lost for want of room; while a question is asked the array begins with exactly the pages of that question, then Approve and Reject, then the loop and end markers; and the device with this array gives the same replies as the device that takes its pages from lists.", "quantifier": "every execution from power-on (commands with any bytes and random values, buttons), either evaluation order of the two arguments that take the places of Approve and Reject", "why_tests_cant": "the room needed depends on which optional pages a question has and on what earlier questions left in the array; unwritten pointers are noticed only on the one path that reads them", "anchors": ["src/ui/ui_main.h:ui_add_screen", "src/ui/ui_main.h:ui_display_screens", "src/ui/ui_approve_reject.c:ui_approve_reject_screens", "src/ui/ui_dynamic_flow.c:ui_add_dynamic_flow_screens", "src/commands/extpubkey/epk_ui.c:ui_display_account", "src/commands/deriveaddress/da_ui.c:ui_display_address", "src/commands/attestinput/ainpt_ui.c:ui_display_access_token", "src/commands/signtx/stx_ui.c:ui_stx_add_output_screens", "src/commands/signtx/stx_ui.c:ui_stx_add_transaction_screens"]}
{"id": "C62", "title": "Nothing depends on the evaluation order of function arguments", "statement": "Each question takes the places of Approve and Reject by two side effects in the arguments of one call, whose order C leaves open. Whatever can be made to happen with one order can be made to happen with the other: the same commands with the same replies, the same pages, the same answers to the same questions with the same replies, ending in the same device state. Only the number of button presses to get to an answer differs.", "quantifier": "every execution from power-on under either order, in both directions", "why_tests_cant": "a test runs one compiler's order only, and compares finitely many runs", "anchors": ["src/ui/ui_approve_reject.c:ui_approve_reject_screens", "src/ui/ui_main.h:ui_next_sreen_ptr", "src/commands/extpubkey/epk_ui.c:ui_display_account", "src/commands/deriveaddress/da_ui.c:ui_display_address", "src/commands/attestinput/ainpt_ui.c:ui_display_access_token", "src/commands/signtx/stx_ui.c:ui_stx_add_operation_approve_screens", "src/commands/signtx/stx_ui.c:ui_stx_add_output_screens", "src/commands/signtx/stx_ui.c:ui_stx_add_transaction_screens"]}
{"id": "C63", "title": "While nothing is asked the device shows its menu", "statement": "While no question is asked, the page on display is one of the pages of the main menu or of the About menu; buttons in the menu are not answered to the host and do not change the device; nothing can be approved there; the application is left only by pressing both buttons at Quit; and after every question the main menu is back at its first page.", "quantifier": "every execution from power-on, either evaluation order", "why_tests_cant": "the menu lives in the same array as the questions, so what it shows depends on all previous commands", "anchors": ["src/ui/ui_menu.c:ui_menu_main", "src/ui/ui_menu.c:ui_menu_about", "src/ui/ui_main.h:ui_add_screen", "src/commands/extpubkey/epk_ui.c:ui_display_account", "src/commands/deriveaddress/da_ui.c:ui_display_address"]}
{"id": "C64", "title": "Nothing but the tags depends on the session key", "statement": "Take any execution, replace the session key and the authentication function (HMAC) by any others, and present frames whose tags are correct there exactly when they were correct before. Then every question, every screen and every reply is the same, except that the reply to a request for a frame carries the tag of its own world behind the same bytes. (So the session key is used for making and checking tags and for nothing else, and any statement about forging tags can be made about the function alone.)", "quantifier": "every execution, every pair of session keys and authentication functions, every choice of tags with equal correctness", "why_tests_cant": "compares pairs of executions under arbitrary keys and functions; a dependence on the key elsewhere would show only in such pairs", "anchors": ["src/commands/signtx/stx_handler.c", "src/commands/attestinput/ainpt_response.c", "src/context.c", "src/helpers/input_frame.c"]}
{"id": "C65", "title": "Temporary copies of private keys are erased", "statement": "After computing a public key, after starting a signing session and after making a signature, all arrays that held a private key, a chain code or a value computed from the private key are zero again: the raw key of the derivation, the key structures, the private chain code, the copy of the secret and the buffer of the Schnorr computation. If the start of a session fails no ephemeral key is left, and after a signature (or a failure to make one) the ephemeral key is zero. (False as stated: the derivation failing half way leaves its 64 bytes, and a failing modular multiplication or addition leaves the product of challenge and private key; the partial theorems say that nothing else is ever left.)", "quantifier": "every path, every content of memory, every behaviour of the SDK, with failures at any call and anything in its outputs", "why_tests_cant": "stack contents are not observable from outside, and failures of single SDK calls cannot be provoked on the device", "anchors": ["src/helpers/crypto.c:24", "src/helpers/crypto.c:49", "src/helpers/crypto.c:81", "src/ergo/schnorr.c:28", "src/ergo/schnorr.c:90", "src/commands/signtx/operations/stx_op_p2pk.c:65", "src/commands/signtx/operations/stx_op_p2pk.c:381"]}
{"id": "C66", "title": "No result after a failing cryptographic call", "statement": "A public key is returned, a signing session is started and a signature is sent only if every call into the SDK that it is made from succeeded: derivation, construction of the key, generation of the pair; for a session all hash, comparison and multiplication calls of the attempt that is used; for a signature hash, multiplication and addition. (False as stated: the error code is cut to 16 bits, so that an error whose low 16 bits are zero counts as success, and a signature with the private key 0 is sent; true for codes with a nonzero low half.)", "quantifier": "every path, every content of memory, every SDK, failures at any call", "why_tests_cant": "failures of single SDK calls, with chosen codes, cannot be provoked by tests", "anchors": ["src/helpers/crypto.c:24", "src/helpers/crypto.c:49", "src/helpers/crypto.c:81", "src/ergo/schnorr.c:28", "src/ergo/schnorr.c:90", "src/commands/signtx/operations/stx_op_p2pk.c:65", "src/commands/signtx/operations/stx_op_p2pk.c:381"]}
{"id": "C67", "title": "The cryptographic functions compute what the protocol needs", "statement": "With SDK calls that compute key derivation, curve multiplication, hash and modular arithmetic, whatever was in memory before: crypto_generate_public_key gives the public key and the chain code of the path; stx_operation_p2pk_init gives the hash prefix with the public key of the path and the commitment of the ephemeral key, the ephemeral key being the first usable one of the values drawn (at most 100); ui_stx_operation_p2pk_send_response sends the 56 bytes of challenge and response; the errors are the same as well. (This is the step from the statements of the C functions on their buffers to the functions on which the other properties about keys and signatures are stated.)", "quantifier": "every path, network, content of memory, number of earlier calls and draws, every SDK serving the functions", "why_tests_cant": "dirty memory, rejected draws and failing multiplications cannot be produced by tests", "anchors": ["src/helpers/crypto.c:24", "src/helpers/crypto.c:49", "src/helpers/crypto.c:81", "src/ergo/schnorr.c:28", "src/ergo/schnorr.c:90", "src/commands/signtx/operations/stx_op_p2pk.c:65", "src/commands/signtx/operations/stx_op_p2pk.c:381"]}
{"id": "C68", "title": "Whatever is pressed at a question, it can still be approved or refused", "statement": "With the flow engine of the SDK written out (next, previous, validation flow, relayout) together with the code of the app that calls it (dynamic screens, path page, Approve, Reject): in every execution, whatever buttons were pressed and commands sent so far, the question on display can be answered by pressing buttons. FALSE: both buttons on the page \"Path\" of an export or address question start the validation flow of that page in place of the question; its only step calls ux_flow_next, which has no effect there, so the question stays on display, the device stays busy, and no button and no command changes anything until the device is restarted. True parts: this is the only such state; questions of attestations and signing sessions can always be refused; without such a press the engine goes through exactly the steps of the model used for all other properties, with the same replies.", "quantifier": "all environments, models of the device, session keys, and executions (lists of button presses and commands with their data and random values)", "why_tests_cant": "All sequences of presses and commands, over all questions with any number of dynamic pages; and that no continuation of any length leaves the state.", "anchors": ["src/ui/ui_bip32_path.c:8", "src/ui/ui_bip32_path.c:22", "src/ui/ui_dynamic_flow.c:25", "src/ui/ui_dynamic_flow.c:47", "src/ui/ui_dynamic_flow.c:63", "src/ui/ui_approve_reject.c:7", "src/ui/ui_main.h:24", "src/commands/extpubkey/epk_ui.c:57", "src/commands/deriveaddress/da_ui.c:79"]}
{"id": "C69", "title": "The main loop goes on for ever and every message gets its response, in order", "statement": "With messages as bytes and the I/O functions of the SDK written out (state of the exchange, prepared response, receive, send, parser): app_main never returns because of a message or a button; after every input it waits for the next one (except when the random generator gives no session id, and in the case of C47). A message is taken for a command iff it is class, instruction, P1, P2, the number of data bytes, and that many data bytes; any other message is answered by 0x6A87 and not seen by the handlers. The responses sent are exactly the replies of the handlers, data followed by the status word high byte first, each sent once before the next input is looked at, also those sent from the callbacks of the buttons; no response is lost or sent twice or longer than 257 bytes. Messages = responses, plus one while a question is on display. Commands are answered in their order. (The last sentence is FALSE: a command sent while the user is being asked is answered first; nothing in the later response tells which command it belongs to. Proved: the order for hosts that send nothing while the user is being asked.)", "quantifier": "all sequences of messages (arbitrary byte strings) and buttons, all random values, keys and devices", "why_tests_cant": "The exchange has a state that is changed by messages, by replies and by callbacks inside of the receive function; losing a response needs a particular interleaving, and the messages are arbitrary bytes.", "anchors": ["src/app_main.c:36-80", "src/apdu_dispatcher.c:16-58", "src/helpers/response.h:9-27", "doc/APDU.md:25-30", "src/commands/attestinput/ainpt_response.c:21-58"]}
{"id": "C70", "title": "A session is determined by what was accepted in it", "statement": "While a signing or attestation session goes on, the device is the one that is reached from power-on by the first command of the session, its approval, and the commands accepted and outputs approved since, and nothing else (for attestation: from power-on with the application token of the last approval before the session). Other sessions before, refused or unknown commands, commands sent while the user was being asked, and turning pages leave no trace in it. While an output is being confirmed the only difference is the page on display. A released signature is the one that this shortest execution ends with. So two executions with the same accepted commands and approvals in the session (and the same random values at its start) answer everything that follows in the same way.", "quantifier": "all executions since power-on, of any length and with any sessions in between, all session contents, keys, environments, both device kinds; all continuations", "why_tests_cant": "History independence compares each reachable state with the state of another execution; there are infinitely many histories for one session.", "anchors": ["src/context.c:22-26", "src/commands/signtx/stx_handler.c:277-343", "src/commands/attestinput/ainpt_handler.c:147-181", "src/commands/signtx/stx_ui.c:69-84", "src/commands/signtx/stx_ui.c:220-241"]}
{"id": "C71", "title": "The reference hash is BLAKE2b, however the message is cut", "statement": "The reference implementation of BLAKE2b computes, for every message and every result length from 1 to 64 bytes, the function of RFC 7693 (mixing, rounds and schedule, compression iterated over blocks of 128 bytes with byte counter and final flag), and refuses other lengths. Feeding a message in pieces of any sizes gives the result of the whole message; the buffer of 128 bytes never overflows; finalizing twice fails. Contexts as used by the app record exactly the hashed bytes, work up to 65535 bytes and then refuse. The result has the requested length.", "quantifier": "for all messages, all ways of cutting them into updates, all result lengths", "why_tests_cant": "Messages, their lengths relative to the block size and ways to cut them are unbounded; block-boundary faults show only for particular cuts.", "anchors": ["unit-tests/utils/blake2b-ref.c:61", "unit-tests/utils/blake2b-ref.c:87", "unit-tests/utils/blake2b-ref.c:163", "unit-tests/utils/blake2b-ref.c:206", "unit-tests/utils/blake2b-ref.c:231", "unit-tests/utils/cx.c:14", "src/helpers/blake2b.c:3", "src/helpers/blake2b.c:20"]}
{"id": "C72", "title": "Signatures are valid proofs on secp256k1", "statement": "With the curve operations of the operating system taken as multiplication of the base point of secp256k1: the base point and the order written in the source are a point of the curve y^2 = x^3 + 7 and its prime order; for every scalar the affine formulas give the uncompressed form of the multiple, and nothing exactly for multiples of the order; the key reported for a path is the multiple by the private key of the path, and paths with equal 33-byte keys have equal private keys modulo the order; every released signature is a valid proof on the curve for that key and the transaction of the session. Two valid proofs with one commitment and different challenges give the private key; so do two signatures of sessions that drew the same random scalars.", "quantifier": "for all scalars of any length, all paths, all sessions, all hash functions and derivations", "why_tests_cant": "Scalars and sessions are unbounded; exceptional cases of the addition formulas (doubling, opposite points, infinity) and the primality of the order are not reached by samples.", "anchors": ["src/ergo/schnorr.c:12", "src/ergo/schnorr.c:20", "src/ergo/schnorr.c:47", "src/ergo/schnorr.c:53", "src/ergo/schnorr.c:69", "src/ergo/schnorr.c:75", "src/ergo/schnorr.c:90", "src/helpers/crypto.c:67"]}
{"id": "C73", "title": "Exactly the documented requests are accepted", "statement": "A command that starts an operation is refused if and only if it is not one the documentation describes (or a key cannot be computed, or the path does not fit the screen): what is accepted is in the documentation, and what the documentation describes is accepted; a known token starts attestation, export and signing without a question, and the fee and change scripts are accepted only for outputs announced with script size 0.", "quantifier": "for all start commands, all data, all reachable states without an open question, all environments", "why_tests_cant": "The tests send requests that the code was written for; the difference between the tables of the documentation and the code is in the values that nobody sends.", "anchors": ["doc/INS-10-EXT-PUB-KEY.md:14", "doc/INS-11-DERIVE-ADDR.md:7", "doc/INS-20-ATTEST-BOX.md:22", "doc/INS-21-SIGN-TRANSACTION.md:15", "doc/INS-21-SIGN-TRANSACTION.md:34", "doc/INS-21-SIGN-TRANSACTION.md:154", "src/commands/extpubkey/epk_handler.c:48", "src/commands/signtx/stx_handler.c:36", "src/commands/signtx/stx_handler.c:75"]}
{"id": "C74", "title": "What leaves the wallet was shown", "statement": "When a signature is released, every complete output that does not go back to a key of this device is a fee output without tokens, or the user approved it in the session at a moment of its own, when the pages said its recipient, its exact value and every token with its exact amount. If no output was given up half-way and the transaction is balanced (as the network demands), the 'Transaction Amount' on the last screen is the sum of the values of those approved outputs, and amount plus fee is exactly what the inputs lose beyond the change; for every token, what the inputs lose beyond the change is what the approved outputs get of it plus the burned or minted difference on the last screen.", "quantifier": "for all sessions of all executions, all hosts, all numbers of inputs, outputs and tokens", "why_tests_cant": "The claim connects screens at different moments with sums over the whole transaction; tests look at single screens of single transactions.", "anchors": ["src/commands/signtx/operations/stx_op_p2pk.c:289", "src/commands/signtx/stx_ui.c:256", "src/commands/signtx/stx_ui.c:364", "src/commands/signtx/stx_amounts.c:10"]}
{"id": "C75", "title": "A failure of the operating system is like a refusal", "statement": "Key derivation, key generation, curve operations, hashing or drawing may fail at any moment and work again at the next. A command or button press during which they fail does exactly what it does otherwise, or is answered with an error and leaves the main menu with no session (only the application token of the last approval and the session key remain). So whatever the moments of the failures, every state reached with failures is also reached without any, by the same sequence of commands, buttons and replies in which each failure is replaced by a refusal of the user or by a command with an unknown subcommand; in particular a signature is released only for the approval of a confirmation screen in a session whose start the user approved, with no failure since then.", "quantifier": "for all executions with any number of failures at any moments, all hosts, all users", "why_tests_cant": "The operating system's calls do not fail in tests; the moments and combinations of failures are unbounded.", "anchors": ["src/commands/signtx/operations/stx_op_p2pk.c:65", "src/commands/signtx/operations/stx_op_p2pk.c:381", "src/commands/signtx/stx_handler.c:33", "src/commands/deriveaddress/da_handler.c:61", "src/commands/extpubkey/epk_handler.c:56", "src/helpers/crypto.c:24"]}
{"id": "C76", "title": "Without consent the host learns nothing about the wallet", "statement": "Two devices with different seeds (all private and public keys may differ) that receive the same commands and button presses ask the same questions, show the same pages and send the same replies, except for: the text of an address shown to the user; the bytes, not their number, of an exported key or address, sent when the user approves that export or directly to an application approved before; and the answer when the user approves the final question of a signing session. In particular, as long as the user has approved nothing, every reply is the same whatever the seed is.", "quantifier": "for all executions, all pairs of wallets with the same set of derivable paths, all hosts and users", "why_tests_cant": "It compares two executions, for every seed and every sequence of commands; a test compares replies for one seed.", "anchors": ["src/commands/extpubkey/epk_handler.c:29-73", "src/commands/deriveaddress/da_handler.c:30-79", "src/commands/deriveaddress/da_ui.c:58-119", "src/commands/signtx/stx_handler.c:235-254", "src/commands/signtx/operations/stx_op_p2pk.c:257-269", "src/commands/attestinput/ainpt_handler.c:147-181"]}
{"id": "C77", "title": "Nothing outside the limits is signed", "statement": "The limits of C55 are not only sufficient but necessary. Whenever the device releases a signature and every announced output was sent in full, the transaction that the commands of the session say, with attested boxes as inputs, satisfies every one of them: numbers of inputs, data inputs, tokens and outputs, sizes of scripts, registers and context extensions, 32-byte ids, representable sums, at most 20 different token ids, no token entry of an output after a nonzero entry of the same token, fee and change together not more than the inputs, and derivable change paths; and the signature is over its bytes. If no tag was forged and attested boxes with equal ids have equal tokens, such a transaction exists.", "quantifier": "for all executions that end in a signature, and all transactions that the commands say", "why_tests_cant": "It excludes every transaction outside the limits, under every way of sending it; tests try some of them.", "anchors": ["src/ergo/tx_ser_full.c:1-386", "src/ergo/tx_ser_box.c:1-313", "src/ergo/tx_ser_input.c:1-115", "src/commands/signtx/stx_amounts.c:1-80", "src/commands/signtx/operations/stx_op_p2pk.c:52-254"]}
{"id": "C78", "title": "A refused signing command says why", "statement": "In an open signing session, when the user is not being asked anything, the status word of a refused command names its cause: every command has a list of demands in a fixed order (length of the data, state of the session, tag of the frame, counts, sizes, whole ids and amounts, table indices, representable sums and balances, path, key), each with a status word of sw.h, and the reply is the status word of the first demand that is not met; with all demands met the command is accepted.", "quantifier": "for all executions, all 12 signing commands, all data and all states of the session", "why_tests_cant": "Which of several failing checks decides the reply depends on the order of the checks for every combination of causes; tests provoke one cause at a time.", "anchors": ["src/sw.h:1-72", "src/commands/signtx/stx_handler.c:33-283", "src/commands/signtx/operations/stx_op_p2pk.c:52-287", "src/ergo/tx_ser_full.c:1-386", "src/ergo/tx_ser_box.c:1-313", "src/ergo/tx_ser_input.c:1-115", "src/ergo/tx_ser_table.c:1-65", "src/commands/signtx/stx_amounts.c:1-80"]}
{"id": "C79", "title": "Every refused command says why", "statement": "For any bytes sent as a command at any time, the device's status word names its cause: the command has a list of demands in a fixed order (length, class, instruction, parameters, not busy; then those of the start commands, of an attestation in progress, or of a signing session in progress), each with a status word, and the reply is the status word of the first demand that is not met, without any data. If all demands are met the reply is success, or a question to the user, or (only if every random number is 0) an endless search for a session id.", "quantifier": "for all executions, all APDUs (class, instruction, P1, P2, data, random numbers) and all states of the device", "why_tests_cant": "Which of several failing checks decides the reply depends on the order of the checks in every handler and for every combination of causes and states; tests provoke one cause at a time.", "anchors": ["src/sw.h:1-72", "src/apdu_dispatcher.c:1-58", "src/commands/app_version.c:1-24", "src/commands/extpubkey/epk_handler.c:1-72", "src/commands/deriveaddress/da_handler.c:1-78", "src/commands/attestinput/ainpt_handler.c:1-181", "src/commands/signtx/stx_handler.c:1-343"]}
{"id": "C80", "title": "All replies are given by one table", "statement": "There is one function from what was observed so far and the next event to the reply: for a command the status word of its first unmet demand or the documented answer, for paging nothing, for both buttons what the page under them means, with the exact bytes of every answer including the signature. Every reply of the device in every reachable state is that of the function, so everything that can be observed of an execution is determined by the events alone, on all device models; the only exception is the undefined page of a token minted by exactly 2^63.", "quantifier": "for all executions and all events", "why_tests_cant": "Tests compare the replies of chosen conversations with expected ones; that one table is right for all conversations, and that nothing hidden in the device influences a reply, is a statement about all of them.", "anchors": ["src/apdu_dispatcher.c:1-58", "src/commands/signtx/stx_handler.c:33-283", "src/commands/signtx/stx_ui.c:92-362", "src/commands/signtx/operations/stx_op_p2pk.c:52-413", "src/commands/attestinput/ainpt_handler.c:71-181", "src/commands/deriveaddress/da_handler.c:30-78", "src/commands/extpubkey/epk_handler.c:29-72", "src/ui/ui_dynamic_flow.c:32-109", "src/ergo/schnorr.c:28-118"]}
{"id": "C81", "title": "Everything on the display is given by the table", "statement": "The page on the display is, in every reachable state, a function of what was observed before: which question, how far the user paged, and the pages of the question in their order, with tokens in the order of the token table and then of the inputs. With the pages known, the replies to paging are known exactly too: a page that cannot be shown ends the operation with its status word, and the device is undefined exactly when the user pages to the amount of a token minted by 2^63. So the events alone determine the display, the replies, and whether the execution is defined.", "quantifier": "for all executions, all events and all sequences of events", "why_tests_cant": "Screens are compared with snapshots for a few transactions; that no transaction, no order of tokens and no way of paging leads to a page other than the right one is a statement about all of them.", "anchors": ["src/commands/signtx/stx_ui.c:92-390", "src/commands/signtx/operations/stx_op_p2pk.c:331-428", "src/commands/signtx/stx_amounts.c:8-80", "src/ui/ui_dynamic_flow.c:22-109", "src/ui/ui_approve_reject.c:1-30", "src/commands/deriveaddress/da_ui.c:19-119", "src/commands/extpubkey/epk_ui.c:17-87", "src/commands/attestinput/ainpt_ui.c:10-50"]}
{"id": "C82", "title": "Addresses on the display can be read back", "statement": "Let the address on the display be read with the base58 decoder of the repository. In every reachable state it is accepted, and gives 38 bytes for an address of a key and 29 for an address of a script: kind and network, content, and the first four bytes of the hash of both. In the question about an output, an address of a key so read gives the complete script that is paid, and an address of a script gives its hash. The decoder accepts exactly the base58 texts of 2 to 164 characters whose bytes fit into the output, inverts the encoder on everything the encoder writes for at least two bytes, and never accesses memory outside its arrays.", "quantifier": "for all executions and all pages on the display; for all texts, all byte strings and all output sizes", "why_tests_cant": "The unit tests decode a few texts; that the text of every address on the display has exactly one reading, the right one, is a statement about all keys, scripts and checksums.", "anchors": ["unit-tests/utils/base58.c:46-107", "unit-tests/utils/base58.c:109-157", "src/commands/signtx/stx_ui.c:118-168", "src/commands/deriveaddress/da_ui.c:19-119", "src/ergo/address.c:1-60"]}
{"id": "C83", "title": "The approval question leaves nothing in the remembered change path", "statement": "The approval question of a signing request, the transaction, and the final question share their memory (a union), and last_approved_change is read when a transaction has started although it was not written then. For every pointer size up to 8, every size of enumerations, alignment of 64-bit numbers and size of the hash context: after the wipe at the start of a command and any accesses within the bounds of the members of the union (of paths only that of a change output being stored as approved), the bytes of last_approved_change are those of the path that was approved last, or of no path; and the comparison of a change path with these bytes is the comparison with the path approved last. So no text shown, token sent or serializer state can make a change output count as approved.", "quantifier": "for all layouts of the structures, all contents of the memory before, and all sequences of accesses", "why_tests_cant": "Tests run on one compiler, with few paths and one application token; whether stale bytes of another member can be taken for an approved path depends on the layout and on all values that were written.", "anchors": ["src/commands/signtx/operations/stx_op_p2pk.h:10-48", "src/commands/signtx/stx_types.h:36-65", "src/commands/signtx/stx_output.h:13-38", "src/commands/signtx/stx_ui.c:220-251", "src/commands/signtx/stx_handler.c:235-254", "src/context.c:22-26"]}
{"id": "C84", "title": "The change decision read from the bytes in memory", "statement": "In every signing session: whatever was in memory before, for every layout of the structures, and whatever bytes the approval question, the serializer, the output being received and the texts on display wrote within their members, the bytes of last_approved_change are those of the change path the user approved last, or of no path if the output approved last was not change. When an accepted command completes a change output, the device asks about it exactly if its path does not have five components, or the comparison of the bytes of the path with the bytes of last_approved_change fails and the path is outside the window of the signing path.", "quantifier": "for all runs of the device with an open session and nothing on the screen, all accepted output parts, all layouts, all contents of the memory before, and all accesses that the steps of the session may make", "why_tests_cant": "The result depends on the layout chosen by the compiler and on everything that any step of the session wrote to the shared memory; tests see a few sessions on one compiler.", "anchors": ["src/commands/signtx/operations/stx_op_p2pk.c:289-321", "src/commands/signtx/operations/stx_op_p2pk.h:10-48", "src/commands/signtx/stx_handler.c:235-254", "src/commands/signtx/stx_ui.c:220-251", "src/commands/signtx/stx_output.c:22-114"]}
{"id": "C85", "title": "What the screens of a question tell apart", "statement": "Compare two devices with the same question on the screen, each at the end of any history. All pages of the question are the same exactly if the two requests look the same in the following sense. Signing: same path, same value of inputs minus change and fee, same fee, and one for one the same amounts of burned and minted tokens, with ids agreeing in the first and last 13 bytes (Nano S: first and last 7 hexadecimal digits). Output: the same kind; for change the same first 69 characters of the path; otherwise the same network, the same public key or the same 24 bytes of script hash, the same value and the same tokens in the sense above; for the fee the value and the tokens. Other questions: the same first 59 characters of the path, the same address if one is confirmed, and the same application token, except at the start of a session for an application that is already known. In particular two export questions for accounts show the same pages only for the same path.", "quantifier": "for all pairs of runs of the device (any commands, buttons, keys) that end with the same question on the screen", "why_tests_cant": "It compares every pair of histories; tests compare the screens of chosen transactions with recorded ones.", "anchors": ["src/commands/signtx/stx_ui.c:93-374", "src/commands/deriveaddress/da_ui.c:58-119", "src/commands/extpubkey/epk_ui.c:40-87", "src/commands/attestinput/ainpt_ui.c:34-50", "src/ui/ui_bip32_path.c:7-44", "src/ui/ui_application_id.c:5-21"]}
{"id": "C86", "title": "No failing call goes unnoticed", "statement": "The code calls the operating system for key derivation, hashing, curve and modular arithmetic; during one command or button press there may be many such calls (hashing an output alone makes several), and each of them may fail on its own, in any combination, whenever it is made. If all the calls made during an event work, the device does what it does without failures. If any one of them fails, the answer is 0xE00F, 0xE013, 0xE016 or 0xE017 without data and the device is at the main menu with no session and nothing but the application token and the session key; with two exceptions: the checksum of an address, whose failure is answered with 0xE016 and leaves an empty command, and the start of signing, which may use another of its random draws. So an answer with success means that every call worked; every state reached with failing calls is reached without failures; and a signature answers the approval of a confirmation screen of a session whose start the user approved, with no failure since then and no failing call during the signing itself.", "quantifier": "for all executions with any commands and buttons, and for every choice, at every event, of the calls that fail", "why_tests_cant": "The calls do not fail in tests; the number of combinations of failing calls is unbounded.", "anchors": ["src/helpers/blake2b.c:3-23", "src/helpers/crypto.c:24-106", "src/ergo/schnorr.c:28-118", "src/ergo/tx_ser_full.c:1", "src/ergo/tx_ser_box.c:1", "src/commands/signtx/operations/stx_op_p2pk.c:40-447", "src/commands/attestinput/ainpt_handler.c:1", "src/commands/deriveaddress/da_handler.c:61-66"]}
{"id": "C87", "title": "A failing authentication function is noticed", "statement": "Also when the HMAC of the operating system fails at some moment, an input frame is accepted only if its 16 bytes of tag are the right ones. (FALSE: the result of cx_hmac_sha256 is not tested, and the array it should fill is not initialised. If the call fails, the tag sent by the host is compared with whatever the array holds; a concrete session in which a frame the device never released is accepted and the transaction is signed. What is proved, with the HMAC and any of the other calls failing at any moments: a frame accepted while the HMAC works has the right tag; every execution is like one without HMAC failures in which frames with other tags were presented and released, everything else being the same; so a signature still answers the approval of a confirmation screen of a session whose start the user approved, with no error since then.)", "quantifier": "for all executions, all moments of failure, all contents of the arrays", "why_tests_cant": "The call does not fail in tests, and the content of an array that is not initialised is arbitrary.", "anchors": ["src/commands/signtx/stx_handler.c:119-140", "src/commands/attestinput/ainpt_response.c:48-56"]}
{"id": "C88", "title": "The work for one event is bounded", "statement": "Handling one event makes a bounded number of calls to the hash, curve, big-number and key-derivation functions of the operating system, whatever the bytes of the command and whichever calls fail: the command that starts a signing session makes at most 902 (two for the private key and at most 100 tries of nine calls each), and in every device that can be reached every other event makes at most 42 (twenty tokens of an output in one command); both bounds are reached. Even in device states that cannot be reached the bounds are 902 and 515; a left or right button makes at most one call and an approval at most five. A session of n events makes at most 902 n calls.", "quantifier": "for every environment, every set of failing calls, every event; every reachable device, and (with the weaker bound) every device state; sequences of events of any length", "why_tests_cant": "The worst case needs a hundred failing tries in a row, and counters of attacker-chosen size (token table, data inputs, tree length) that no test runs through in every state.", "anchors": ["src/helpers/crypto.c:24-106", "src/ergo/schnorr.c:28-118", "src/ergo/tx_ser_full.c:127-152", "src/ergo/tx_ser_table.c:1", "src/commands/signtx/operations/stx_op_p2pk.c:65-447", "src/commands/signtx/stx_handler.c:61-343"]}
{"id": "C89", "title": "Failures are temporary", "statement": "After any execution in which calls of the operating system failed at any moments (the authentication function included): if nothing is asked and the calls work from then on, every transaction within the limits of C55 is attested and signed with the documented commands; and if a question is on display, there are at most 44 presses of the left and right buttons after which pressing both buttons answers 0x6985 and leaves nothing but the application token and the session key, whatever the host sends in between and whatever fails then, except that a failing call during the presses has itself answered the question with 0xE00F, 0xE013, 0xE016 or 0xE017 and left nothing more.", "quantifier": "for all executions with any failing calls, all transactions within the limits, all further failures while a question is being refused", "why_tests_cant": "Which calls fail, and when, is a choice at every event of an unbounded history; tests run on a system whose calls work.", "anchors": ["src/apdu_dispatcher.c:13", "src/helpers/response.h:1", "src/commands/signtx/stx_ui.c:350", "src/ui/ui_dynamic_flow.c:1", "src/ergo/schnorr.c:28"]}
{"id": "C90", "title": "Which sizes of the text arrays the formatting functions can work with", "statement": "For every value and every size n of a zeroed character array, what a formatting function leaves in it is known exactly. format_u64 writes the whole number with a terminator if it has fewer than n digits and refuses it otherwise, but overflows an array of one character for numbers below ten. format_erg_amount writes the whole amount from n = 16 on if it is below 1 ERG (from n = digits + 11 on otherwise) and refuses it below, but for amounts below 1 ERG (d digits) and 11 - d < n <= 11 it measures a text that has no terminator. format_b58_id writes the whole text, without terminator if the text has exactly n characters. format_hex_id writes the shortened token id from n = 65 on and refuses it below. bip32_path_format writes the text cut to n - 1 characters or refuses it. The sizes used by the app (55, 60 and 70) are good for all values.", "quantifier": "for all 64-bit numbers, all byte strings, all token ids, all paths, all array sizes", "why_tests_cant": "The bad sizes depend on the number of digits of the value; tests use the arrays of the app, and a text without terminator in a larger zeroed memory looks right.", "anchors": ["src/commands/signtx/stx_ui.c:32", "src/commands/signtx/stx_ui.c:42", "src/commands/signtx/stx_ui.c:49", "src/commands/signtx/stx_ui.c:55", "src/commands/signtx/stx_types.h:45", "unit-tests/utils/bip32.c:45", "unit-tests/utils/base58.c:109"]}
{"id": "C91", "title": "The ephemeral key is unbiased, and a released signature is uniformly distributed over the valid ones", "statement": "Let the random generator give 100 numbers below 2^256 for a start of signing (a tape), all tapes equally likely. Every nonzero residue modulo the group order is the ephemeral key for the same number N of tapes, and nothing else is ever used; the tapes without result are those with 100 unusable numbers. For every secret and message, every 56-byte string that the network accepts as signature under the public key (with nonzero challenge, and commitment other than the point at infinity) is the signature for exactly N tapes, and every other string for none. The same holds for the device: any execution that has come to the final question can be repeated with every usable tape, with the same observations, and each valid signature of the described transaction is the reply to the approval for exactly N tapes. So the distribution of what is released depends on public data only.", "quantifier": "for all secrets, messages, signatures and hash functions; for all executions that reach the final question, and all 2^25600 tapes", "why_tests_cant": "A bias of the ephemeral key (as by reduction modulo the order) is invisible in any number of test runs but reveals the private key over time; a distribution is a statement about all random values at once.", "anchors": ["src/ergo/schnorr.c:28", "src/ergo/schnorr.c:60", "src/ergo/schnorr.c:64", "src/ergo/schnorr.c:90", "src/commands/signtx/operations/stx_op_p2pk.c:85", "src/commands/signtx/operations/stx_op_p2pk.c:403"]}
{"id": "C92", "title": "An input frame that the device did not send is accepted by luck only", "statement": "Let the tag of one frame body under the session key be unknown (each of the 2^128 values equally likely), everything else being arbitrary but fixed, and let host and user follow any strategy, choosing each command and each button press from everything seen before. If the strategy presents frames with this body at most q times, then for at most q of the 2^128 values a frame with this body is accepted in a signing session before the device itself has sent a frame with this body. The same holds for presenting the right tag at all. So the device is no help in guessing: no reply, screen or session structure reveals more about a tag than whether the presented one is right.", "quantifier": "for all adaptive strategies, all authentication functions elsewhere, all session keys, all bodies, all executions of any length, all q", "why_tests_cant": "A leak of partial information about the tag (an early exit of the comparison with a different status word, a tag of a shorter length) is found only by an adaptive attacker; the bound is about all attackers and all 2^128 values.", "anchors": ["src/helpers/input_frame.c:4", "src/helpers/input_frame.c:16", "src/commands/signtx/stx_handler.c:131", "src/commands/attestinput/ainpt_response.c:49"]}
{"id": "C93", "title": "Which command is answered with which status word", "statement": "The documentation refers to src/sw.h for the status words without saying which command sends which. There is an exact table: a command with a valid header (class, instruction, P1 and P2, length) is answered at once only with a status word of the line of its instruction and P1, a command without only with one of 0x6A87, 0x6E00, 0x6D00, 0x6A86; a single button only with 0xE101, both buttons only with 0x9000, 0x6985, 0xE017. No entry of the table is superfluous: for every line and every word in it there is an execution in which it is sent. Of the forty words of sw.h thirty-four are sent, and six are never sent while calls of the operating system succeed: wrong response length, screens buffer overflow, too many inputs, too many outputs, hasher error, address formatting failed.", "quantifier": "for all environments, all executions of any length, all commands and buttons; existence of an execution for every entry of the table", "why_tests_cant": "That a status word is never sent by a command is a claim about all executions; the repository's tests see a handful of words.", "anchors": ["src/sw.h:1", "src/commands/signtx/stx_handler.c:42", "src/commands/attestinput/ainpt_handler.c:40", "src/apdu_dispatcher.c:31", "src/helpers/sw_result.h:7"]}
{"id": "C94", "title": "Variable length integers of the SDK are written shortest, read back exactly, and read within bounds", "statement": "varint_write stores the shortest Bitcoin form of any 64-bit number at the given place, returns its length and changes no other byte. buffer_read_varint on any buffer whose read position is within its size returns the number at the beginning of the unread bytes and moves exactly behind it, or returns false with value 0 and moves nowhere; it looks at unread bytes only. What was written is read back whatever follows, and no form written is the beginning of another. Exactly four forms are read; reading does not demand the shortest, so a number up to 252 has four forms that are accepted.", "quantifier": "for all 64-bit numbers, all buffers (pointer, size, offset), all memory contents", "why_tests_cant": "2^64 numbers and arbitrary buffers; reads outside of the buffer for truncated forms are silent.", "anchors": ["unit-tests/utils/varint.c:25", "unit-tests/utils/varint.c:42", "unit-tests/utils/varint.c:82", "unit-tests/utils/buffer.c:128"]}
{"id": "C95", "title": "With a random authentication function any frame that the device did not send is accepted with probability at most q/2^128", "statement": "Let the 16-byte tags of all frame bodies under the session key be drawn independently and uniformly, and let host and user follow any strategy: they choose each command, each button press and even the random bytes of the device from everything seen before, including frames that the device sends with their right tags. If at most q frames are presented for signing in an execution of any length, then the probability that any frame at all is accepted whose body the device had not itself sent before is at most q/2^128. So the frames obtained from the device are of no help in making another one, for all bodies together and for frames chosen depending on earlier ones.", "quantifier": "for all adaptive strategies, all q, all executions of any length, all finite sets of bodies and the set of all bodies that fit into a command, counted over all functions from bodies to tags", "why_tests_cant": "The statement counts over all 2^(128*N) authentication functions, N the number of bodies, and over all adaptive strategies.", "anchors": ["src/helpers/input_frame.c:4", "src/helpers/input_frame.c:16", "src/commands/signtx/stx_handler.c:131", "src/commands/attestinput/ainpt_response.c:49"]}
{"id": "C96", "title": "What is signed spends boxes that the device attested, but for a probability of q/2^128", "statement": "Let the tags of all frame bodies under the session key be drawn independently and uniformly, and let host and user follow any adaptive strategy that presents at most q input frames. Except with probability at most q/2^128: whenever a frame with a right tag is presented, the device sent exactly this frame and tag before; every input of every signing session is put together from frames of boxes that the device attested completely in the same power cycle, with their ids, values and tokens; and every released signature is over the bytes of a transaction within the limits that spends such boxes (if every output was sent in full and attested boxes with the same id have the same tokens, see C13). No assumption about forged tags is left.", "quantifier": "for all adaptive strategies, all q, all executions of any length, counted over all authentication functions of frame bodies", "why_tests_cant": "The claim is about all strategies of an attacker and a probability over all 2^(128*N) authentication functions; the exceptional executions cannot be found by testing.", "anchors": ["src/helpers/input_frame.c:4", "src/commands/signtx/stx_handler.c:131", "src/commands/signtx/stx_handler.c:145", "src/commands/attestinput/ainpt_response.c:30"]}
{"id": "C97", "title": "Forged frames in many power cycles", "statement": "Let host and user follow any adaptive strategy that may also switch the device off and on at any time, for k power cycles of any length, each with a newly drawn authentication function, and let at most q input frames be presented in all of them together. With probability at most q/2^128 the device accepts, in any power cycle, a frame that it has not sent in the same power cycle - in particular a frame recorded in an earlier one. Except with this probability every signature released in any power cycle is over a transaction that spends boxes attested in the same power cycle (if every output was sent in full and attested boxes with the same id have the same tokens). The bound does not depend on the number of power cycles.", "quantifier": "for all adaptive strategies over all power cycles, all k and q, all executions of any length, counted over all authentication functions of every power cycle", "why_tests_cant": "The claim is about all strategies of an attacker across unboundedly many restarts, and a probability over all authentication functions of each.", "anchors": ["src/context.c:11", "src/helpers/input_frame.c:4", "src/commands/signtx/stx_handler.c:131", "src/commands/attestinput/ainpt_response.c:30"]}
{"id": "C98", "title": "The time of the comparison of tags does not help to forge a frame", "statement": "Even if host and user measure how long the device takes to compare the tag of an input frame with the right one, they cannot find a right tag for a frame that the device has not sent with substantially fewer attempts than without a clock.", "quantifier": "for all adaptive strategies that see the replies and the number of bytes compared, all values of the unknown tag, all executions of any length", "why_tests_cant": "Tests compare replies, not times; the claim is about all strategies and all 2^128 values of a tag.", "anchors": ["src/commands/signtx/stx_handler.c:138", "src/commands/signtx/stx_handler.c:131"]}
{"id": "C99", "title": "Every guess of a tag costs an approval", "statement": "A frame is refused for its tag only in a signing session that the user approved, and that ends the session: there are never more such refusals than approved sessions, and when a frame is accepted there is one fewer. Hence, however many frames are presented in however many power cycles, each with a newly drawn authentication function, by any adaptive strategy that may also switch the device off and on: if the user approves at most a signing sessions in all of them together, the device accepts, in any power cycle, a frame that it has not sent in the same power cycle with probability at most a/2^128; and except with this probability every signature released is over a transaction that spends boxes attested in the same power cycle (if every output was sent in full and attested boxes with the same id have the same tokens).", "quantifier": "for all adaptive strategies over all power cycles, all numbers of power cycles and approvals, all executions of any length with any number of presented frames, random authentication functions", "why_tests_cant": "a probability over 2^(128 n) functions and all strategies; tests follow one list of commands", "anchors": ["src/commands/signtx/stx_handler.c:119-180", "src/commands/signtx/stx_handler.c:277-343", "src/commands/signtx/stx_ui.c:69-84", "src/context.c:11-20"]}

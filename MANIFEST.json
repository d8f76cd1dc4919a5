{
 "claims": [
  {
   "property": "C01",
   "status": "partial",
   "theorems": [
    "Ergo.C01_signed_partial",
    "Ergo.C01_partial",
    "Ergo.C01_negation"
   ],
   "note": "false as stated: C01_negation (abandoned output bytes stay in the hash). C01_partial: claim for every session in which no output was abandoned; C01_signed_partial: what is hashed in every session"
  },
  {
   "property": "C02",
   "status": "partial",
   "theorems": [
    "Ergo.C02_partial",
    "Ergo.C02_negation"
   ],
   "note": "false as stated: C02_negation (abandoned output hides the paying output). C02_partial: every completed output of every session was approved, or is a plain fee, or automatically approved change"
  },
  {
   "property": "C03",
   "status": "proved",
   "theorems": [
    "Ergo.C03_approvals"
   ],
   "note": ""
  },
  {
   "property": "C04",
   "status": "proved",
   "theorems": [
    "Ergo.C04_screen"
   ],
   "note": "C04_screen: the complete list of pages on the final screen, for every run: path in full, amount and fee as exact integer sums, one pair of pages per token with non-zero balance."
  },
  {
   "property": "C05",
   "status": "proved",
   "theorems": [
    "Ergo.C05_add_u64",
    "Ergo.C05_sub_u64",
    "Ergo.C05_add_i64",
    "Ergo.C05_sub_i64"
   ],
   "note": ""
  },
  {
   "property": "C06",
   "status": "proved",
   "theorems": [
    "Ergo.C06_fresh",
    "Ergo.C06_erased"
   ],
   "note": "The fresh key is one of the random draws of the new start command; the quality of the random generator is outside the model."
  },
  {
   "property": "C07",
   "status": "proved",
   "theorems": [
    "Ergo.C07_signature",
    "Ergo.C07_session"
   ],
   "note": "signature algebra and whole sessions, for every group of the right order and every hash"
  },
  {
   "property": "C08",
   "status": "proved",
   "theorems": [
    "Ergo.C08_key"
   ],
   "note": "The start screen shows the path cut to 59 characters (C36); the confirmation screen shows it in full."
  },
  {
   "property": "C09",
   "status": "proved",
   "theorems": [
    "Ergo.C09_tag",
    "Ergo.C09_emitted",
    "Ergo.C09_inputs",
    "Ergo.C09_whole"
   ],
   "note": "C09_tag for every HMAC function; C09_emitted/C09_inputs for histories in which every accepted frame was emitted by the device (OwnFrames; implied by Unforged, and holds but for a lucky guess by C96, C97 and C99). Frames of one input may come from several attestations with the same id; C09_whole: if those agree, an input has exactly the attested tokens."
  },
  {
   "property": "C10",
   "status": "proved",
   "theorems": [
    "Ergo.C10_session",
    "Ergo.C10_announced",
    "Ergo.C10_frame",
    "Ergo.C10_concat"
   ],
   "note": ""
  },
  {
   "property": "C11",
   "status": "proved",
   "theorems": [
    "Ergo.C11_parse",
    "Ergo.C11_accepted",
    "Ergo.C11_device",
    "Ergo.C11_session"
   ],
   "note": "C11_device and C11_session put the round trip on the device: a frame read out of the device after an attested box carries a valid tag, says exactly that box, and a signing session accepts it as an input exactly if the frame is due and the sums still fit."
  },
  {
   "property": "C12",
   "status": "proved",
   "theorems": [
    "Ergo.C12_frame",
    "Ergo.C12_bytes",
    "Ergo.C12_announced",
    "Ergo.C12_log"
   ],
   "note": ""
  },
  {
   "property": "C13",
   "status": "partial",
   "theorems": [
    "Ergo.C13_partial",
    "Ergo.C13_negation"
   ],
   "note": "False for tokens: C13_negation (two boxes with the same hashed bytes, one with a token, one without). C13_partial: value is bound, and tokens when the declared tree length is the same; \"collision free\" is stated as: otherwise an explicit hash collision is exhibited."
  },
  {
   "property": "C14",
   "status": "proved",
   "theorems": [
    "Ergo.C14_tokens",
    "Ergo.C14_duplicate"
   ],
   "note": ""
  },
  {
   "property": "C15",
   "status": "proved",
   "theorems": [
    "Ergo.C15_consent"
   ],
   "note": ""
  },
  {
   "property": "C16",
   "status": "proved",
   "theorems": [
    "Ergo.C16_outputs",
    "Ergo.C16_screen",
    "Ergo.C16_display"
   ],
   "note": ""
  },
  {
   "property": "C17",
   "status": "proved",
   "theorems": [
    "Ergo.C17_keys",
    "Ergo.C17_account_paths",
    "Ergo.C17_address_paths",
    "Ergo.C17_address_paths5"
   ],
   "note": "Path classes exactly (C17_account_paths, C17_address_paths, C17_address_paths5) and non-interference for all executions (C17_keys)."
  },
  {
   "property": "C18",
   "status": "proved",
   "theorems": [
    "Ergo.C18_busy"
   ],
   "note": ""
  },
  {
   "property": "C19",
   "status": "proved",
   "theorems": [
    "Ergo.C19_erased",
    "Ergo.C19_until"
   ],
   "note": ""
  },
  {
   "property": "C20",
   "status": "proved",
   "theorems": [
    "Ergo.C20_id",
    "Ergo.C20_wrong",
    "Ergo.C20_returned"
   ],
   "note": "Ids are never 0 and are checked; the code does not make a new id differ from the previous one (not claimed)."
  },
  {
   "property": "C21",
   "status": "proved",
   "theorems": [
    "Ergo.C21_defined",
    "Ergo.C21_kind"
   ],
   "note": "C21_kind: in every reachable state the stored context has the kind the current command and question need (no access through another union member). C21_defined: the undefined outcome, which the model uses for every such access, is replied only in one arithmetic case, the display of a token with out = in + 2^63 (C47). Screen data and serializer unions are tagged in the model; an access with the wrong tag is the undefined outcome."
  },
  {
   "property": "C22",
   "status": "proved",
   "theorems": [
    "Ergo.C22_class",
    "Ergo.C22_instruction",
    "Ergo.C22_parameters",
    "Ergo.C22_length"
   ],
   "note": ""
  },
  {
   "property": "C23",
   "status": "proved",
   "theorems": [
    "Ergo.C23_reject"
   ],
   "note": ""
  },
  {
   "property": "C24",
   "status": "proved",
   "theorems": [
    "Ergo.C24_key",
    "Ergo.C24_token"
   ],
   "note": ""
  },
  {
   "property": "C25",
   "status": "proved",
   "theorems": [
    "Ergo.C25_writer_spec",
    "Ergo.C25_u64",
    "Ergo.C25_u32",
    "Ergo.C25_u16",
    "Ergo.C25_i64",
    "Ergo.C25_i16"
   ],
   "note": ""
  },
  {
   "property": "C26",
   "status": "proved",
   "theorems": [
    "Ergo.C26_prefix_free",
    "Ergo.C26_shortest"
   ],
   "note": ""
  },
  {
   "property": "C27",
   "status": "partial",
   "theorems": [
    "Ergo.C27_partial",
    "Ergo.C27_negation"
   ],
   "note": "False outside [-2^30,2^30): C27_negation is a counterexample; C27_partial is the round trip on the range where it holds"
  },
  {
   "property": "C28",
   "status": "partial",
   "theorems": [
    "Ergo.C28_partial",
    "Ergo.C28_consumed",
    "Ergo.C28_negation"
   ],
   "note": "False: C28_negation; C28_partial/C28_consumed bound what the reader accepts"
  },
  {
   "property": "C29",
   "status": "proved",
   "theorems": [
    "Ergo.C29_sign_part",
    "Ergo.C29_attest_part",
    "Ergo.C29_sign",
    "Ergo.C29_attest"
   ],
   "note": "C29_sign_part/C29_attest_part: in every state, any accepted sequence of pieces of one part has exactly the effect of the concatenation (whole context: hashed bytes, counters, completion, last answer). C29_sign/C29_attest: two executions whose accepted data agree after joining the pieces ask the same question and reach the same device state (up to the page on display), hence behave identically from then on. Executions where the session was silently wiped (attest start with a wrong P2) are excluded by the hypothesis on the current command."
  },
  {
   "property": "C30",
   "status": "proved",
   "theorems": [
    "Ergo.C30_error",
    "Ergo.C30_sticky",
    "Ergo.C30_never_finished",
    "Ergo.C30_counts"
   ],
   "note": "Stickiness for all sequences of serializer operations; exact counts for the whole device (C30_counts)."
  },
  {
   "property": "C31",
   "status": "proved",
   "theorems": [
    "Ergo.C31_session",
    "Ergo.C31_refused",
    "Ergo.C31_chunk",
    "Ergo.C31_attest",
    "Ergo.C31_attest_chunk"
   ],
   "note": "Whole sessions (C31_session), refusals of the out-of-range commands, and attestation."
  },
  {
   "property": "C32",
   "status": "proved",
   "theorems": [
    "Ergo.C32_address",
    "Ergo.C32_title",
    "Ergo.C32_determines"
   ],
   "note": "C32_address (page for every script), C32_title and C32_determines (what the page tells about the script)."
  },
  {
   "property": "C33",
   "status": "partial",
   "theorems": [
    "Ergo.C33_partial",
    "Ergo.C33_change_partial",
    "Ergo.C33_negation",
    "Ergo.C33_change_negation"
   ],
   "note": "False for amount 0 and for change: C33_negation, C33_change_negation. C33_partial: exact list for all other outputs; C33_change_partial: what is shown for change."
  },
  {
   "property": "C34",
   "status": "partial",
   "theorems": [
    "Ergo.C34_partial",
    "Ergo.C34_negation_account",
    "Ergo.C34_negation_approved",
    "Ergo.C34_session_partial",
    "Ergo.C34_session_negation_account",
    "Ergo.C34_session_negation_approved"
   ],
   "note": "False: C34_negation_account and C34_negation_approved; C34_partial gives the exact set of hidden change paths (in terms of sessions: C49); on whole runs of the device: C34_session_partial, C34_session_negation_account, C34_session_negation_approved"
  },
  {
   "property": "C35",
   "status": "proved",
   "theorems": [
    "Ergo.C35_commands",
    "Ergo.C35_scripts"
   ],
   "note": ""
  },
  {
   "property": "C36",
   "status": "partial",
   "theorems": [
    "Ergo.C36_partial",
    "Ergo.C36_prefix_partial",
    "Ergo.C36_text_injective",
    "Ergo.C36_account",
    "Ergo.C36_account_injective",
    "Ergo.C36_address",
    "Ergo.C36_address_injective",
    "Ergo.C36_negation",
    "Ergo.C36_exact",
    "Ergo.C36_same",
    "Ergo.C36_device_negation"
   ],
   "note": "False for 8 or more components (C36_negation); full claim proved for account paths and for address paths of up to 7 components. C36_exact: exactly what is shown for every path and buffer; C36_same: exactly when two paths have the same text on screen. C36_device_negation: two requests for addresses of different paths whose questions show the same pages."
  },
  {
   "property": "C37",
   "status": "proved",
   "theorems": [
    "Ergo.C37_text",
    "Ergo.C37_fits",
    "Ergo.C37_injective",
    "Ergo.C37_address_fits"
   ],
   "note": ""
  },
  {
   "property": "C38",
   "status": "proved",
   "theorems": [
    "Ergo.C38_p2pk",
    "Ergo.C38_p2sh",
    "Ergo.C38_same",
    "Ergo.C38_compressed",
    "Ergo.C38_injective",
    "Ergo.C38_kinds"
   ],
   "note": ""
  },
  {
   "property": "C39",
   "status": "partial",
   "theorems": [
    "Ergo.C39_call_partial",
    "Ergo.C39_calls_partial",
    "Ergo.C39_app",
    "Ergo.C39_refused",
    "Ergo.C39_writes",
    "Ergo.C39_roundtrip",
    "Ergo.C39_negation",
    "Ergo.C39_view"
   ],
   "note": "C39_app: every sequence of the operations the app uses refines a tape, accesses only the array and changes nothing else; C39_refused: a write that does not fit changes nothing; C39_roundtrip: written items are read back; C39_writes: writes stay inside in every sequence without rw_buffer_shift_data; C39_view: the pointer/offset readers agree with the list readers of the model. False for sequences that put the writing position behind the reading position (C39_negation: reads leave the array); C39_calls_partial excludes them. size_t is 32 bits; the other operand of a transfer is a separate object."
  },
  {
   "property": "C40",
   "status": "partial",
   "theorems": [
    "Ergo.C40_slots",
    "Ergo.C40_visits",
    "Ergo.C40_draws_partial",
    "Ergo.C40_negation"
   ],
   "note": "C40_slots and C40_visits are the full claims on slots, indices and paging. 'Every page renders' is false for change with a path that does not fit (C40_negation) and for -2^63 (C47_negation); C40_draws_partial: in all other cases every page renders."
  },
  {
   "property": "C41",
   "status": "partial",
   "theorems": [
    "Ergo.C41_device_negation_output",
    "Ergo.C41_device_negation_transaction",
    "Ergo.C41_partial",
    "Ergo.C41_same_text_partial",
    "Ergo.C41_negation"
   ],
   "note": "False: C41_negation. C41_partial/C41_same_text_partial characterise exactly what the text determines; on whole runs: C41_device_negation_output, C41_device_negation_transaction (exactly which transactions look the same: C85)"
  },
  {
   "property": "C42",
   "status": "proved",
   "theorems": [
    "Ergo.C42_length",
    "Ergo.C42_parse",
    "Ergo.C42_authenticated"
   ],
   "note": ""
  },
  {
   "property": "C43",
   "status": "partial",
   "theorems": [
    "Ergo.C43_negation",
    "Ergo.C43_partial"
   ],
   "note": "False: C43_negation gives a session, with no forged tags, in which one attested box is accepted as both inputs and its value counted twice. C43_partial is what holds: the inputs are one for one attested boxes with their ids, and ERG and token totals are the sums over these boxes, which are distinct when the signed input ids are. Missing: the device itself does not check distinctness."
  },
  {
   "property": "C44",
   "status": "partial",
   "theorems": [
    "Ergo.C44_partial",
    "Ergo.C44_negation"
   ],
   "note": "False as stated: C44_negation gives a session (all outputs complete, all of them confirmed or fee) that ends in a signature over bytes from which a node with self-delimiting parsers reads exactly one transaction, and it pays 99 of 100 to a script never shown. C44_partial: if scripts, registers and extensions belong to the self-delimiting languages of the node's parsers and no output was given up, the node's reading is unique and is the described transaction."
  },
  {
   "property": "C45",
   "status": "partial",
   "theorems": [
    "Ergo.C45_accepted_partial",
    "Ergo.C45_short_partial",
    "Ergo.C45_long_partial",
    "Ergo.C45_session_partial",
    "Ergo.C45_ignored",
    "Ergo.C45_negation"
   ],
   "note": "False as stated (C45_negation, C45_ignored: the commands that ignore the rest). C45_accepted_partial: data lengths of accepted commands; C45_short_partial and C45_long_partial: refusal of shorter and longer data with the status word of the command; C45_session_partial: the same in every reachable state."
  },
  {
   "property": "C46",
   "status": "proved",
   "theorems": [
    "Ergo.C46_idle",
    "Ergo.C46_fresh"
   ],
   "note": "The context equals the all-zero context; stack copies of secrets are not modelled."
  },
  {
   "property": "C47",
   "status": "partial",
   "theorems": [
    "Ergo.C47_partial",
    "Ergo.C47_negation"
   ],
   "note": "False at -2^63 (C47_negation, reachable); C47_partial for all other values."
  },
  {
   "property": "C48",
   "status": "proved",
   "theorems": [
    "Ergo.C48_exact",
    "Ergo.C48_questions"
   ],
   "note": "Both directions, for every reachable state with an open session. Live excludes only the end of a session by an attestation start refused for its P2 value."
  },
  {
   "property": "C49",
   "status": "proved",
   "theorems": [
    "Ergo.C49_asked",
    "Ergo.C49_screen"
   ],
   "note": "Which change is automatic is characterised by C34 (wider than intended there)."
  },
  {
   "property": "C50",
   "status": "proved",
   "theorems": [
    "Ergo.C50_start",
    "Ergo.C50_session",
    "Ergo.C50_signed"
   ],
   "note": "The user answers each question by left, left, both. Fits is the exact condition of C48; the start condition is that of C51."
  },
  {
   "property": "C51",
   "status": "proved",
   "theorems": [
    "Ergo.C51_reply",
    "Ergo.C51_kinds",
    "Ergo.C51_showable"
   ],
   "note": "Showable allows a cut last component (see C36)."
  },
  {
   "property": "C52",
   "status": "proved",
   "theorems": [
    "Ergo.C52_exact",
    "Ergo.C52_idle"
   ],
   "note": "LiveAttest excludes sessions after a start refused for its P2 value (see C45/DESIGN)."
  },
  {
   "property": "C53",
   "status": "proved",
   "theorems": [
    "Ergo.C53_start",
    "Ergo.C53_session",
    "Ergo.C53_frames",
    "Ergo.C53_whole"
   ],
   "note": "AttestFits is the exact condition of C52; the start condition is that of C51."
  },
  {
   "property": "C54",
   "status": "proved",
   "theorems": [
    "Ergo.C54_exact",
    "Ergo.C54_served"
   ],
   "note": "The attestation is live at the moment it is complete (LiveAttest, see C52); the HMAC key is that of one power-on."
  },
  {
   "property": "C55",
   "status": "proved",
   "theorems": [
    "Ergo.C55_coin",
    "Ergo.C55_signed"
   ],
   "note": "WalletTx.Within lists the limits; the user answers each question by left, left, both. Each box is attested without application token. The limits are also necessary: C77."
  },
  {
   "property": "C56",
   "status": "proved",
   "theorems": [
    "Ergo.C56_drawn",
    "Ergo.C56_amounts",
    "Ergo.C56_tokens",
    "Ergo.C56_legible",
    "Ergo.C56_read",
    "Ergo.C56_path",
    "Ergo.C56_application"
   ],
   "note": "The SDK functions format_u64, format_fpu64, format_hex and the C library functions are modelled after their published sources, which are not in the repository. Titles that are static strings of the SDK steps are not drawn by the app. Token ids are shortened by design."
  },
  {
   "property": "C57",
   "status": "proved",
   "theorems": [
    "Ergo.C57_once",
    "Ergo.C57_when",
    "Ergo.C57_length",
    "Ergo.C57_fits"
   ],
   "note": "The transport below the command dispatcher (USB, io_exchange) is not modelled: a reply is one call of the send functions."
  },
  {
   "property": "C58",
   "status": "proved",
   "theorems": [
    "Ergo.C58_refuse"
   ],
   "note": "Buttons reach the application one at a time; the SDK's handling of simultaneous or missed presses is not modelled. Both buttons on the page Path of an export or address question do nothing in this model; with the engine of the SDK they end every way out (C68)."
  },
  {
   "property": "C59",
   "status": "proved",
   "theorems": [
    "Ergo.C59_secrets",
    "Ergo.C59_response"
   ],
   "note": "The session key (HMAC of frames) is the same in both executions. Either both or neither find a valid ephemeral key within the 100 attempts. Timing is not modelled."
  },
  {
   "property": "C60",
   "status": "proved",
   "theorems": [
    "Ergo.C60_numbers",
    "Ergo.C60_address",
    "Ergo.C60_replies",
    "Ergo.C60_frame",
    "Ergo.C60_sent"
   ],
   "note": "The writers of Model/Emit are the C functions with their arrays at an address in memory, on the buffer operations of Model/RwBuffer. C60_numbers, C60_address, C60_replies and C60_frame give success, exact bytes and confinement to the array for every input; C60_sent says that every frame sent in an execution is made this way."
  },
  {
   "property": "C61",
   "status": "proved",
   "theorems": [
    "Ergo.C61_array",
    "Ergo.C61_place",
    "Ergo.C61_same"
   ],
   "note": "Model/Panel writes the entries one by one as the C functions do. The SDK is taken to display the entries before the loop marker. C61_same covers the order Approve before Reject; C62 carries the results to the other order. C61_place: the functions that fill the array, for any number of screens."
  },
  {
   "property": "C62",
   "status": "proved",
   "theorems": [
    "Ergo.C62_order",
    "Ergo.C62_host"
   ],
   "note": "What is noticed of an execution is Spec.heard: commands and replies with the question on display, answers with their replies, failures to draw, and pages. Which answer is reached by one press to the left does depend on the order; an example shows it."
  },
  {
   "property": "C63",
   "status": "partial",
   "theorems": [
    "Ergo.C63_negation",
    "Ergo.C63_menu_partial",
    "Ergo.C63_entries_partial",
    "Ergo.C63_buttons",
    "Ergo.C63_back"
   ],
   "note": "False as stated: a refused request whose path does not fit on the screen leaves the first page of its question in the first entry of the menu (C63_negation). C63_menu_partial: right unless some command was answered with 0xE101; C63_entries_partial: in any case only the first entry can be wrong, and it is a page without callback. The rest (C63_buttons, C63_back) holds without exception."
  },
  {
   "property": "C64",
   "status": "proved",
   "theorems": [
    "Ergo.C64_key"
   ],
   "note": "Two-run simulation; device states related by equality up to the session key."
  },
  {
   "property": "C65",
   "status": "partial",
   "theorems": [
    "Ergo.C65_negation",
    "Ergo.C65_public_partial",
    "Ergo.C65_init_partial",
    "Ergo.C65_finish_partial"
   ],
   "note": "false for failing os_derive_bip32 (raw key stays) and failing multm/addm (product stays): C65_negation; proved otherwise, and in all cases that only these two arrays can be left"
  },
  {
   "property": "C66",
   "status": "partial",
   "theorems": [
    "Ergo.C66_negation",
    "Ergo.C66_public_partial",
    "Ergo.C66_init_partial",
    "Ergo.C66_finish_partial"
   ],
   "note": "false for error codes with low half zero (C66_negation); proved for all SDKs whose codes survive the cast to uint16_t"
  },
  {
   "property": "C67",
   "status": "proved",
   "theorems": [
    "Ergo.C67_public",
    "Ergo.C67_init",
    "Ergo.C67_finish"
   ],
   "note": "refinement between Model/Crypto and Model/Env, Schnorr, P2pk; all three entry points"
  },
  {
   "property": "C68",
   "status": "partial",
   "theorems": [
    "Ergo.C68_same",
    "Ergo.C68_back",
    "Ergo.C68_stuck",
    "Ergo.C68_refuse_partial",
    "Ergo.C68_sessions_partial",
    "Ergo.C68_negation"
   ],
   "note": "The property is false (C68_negation: export request, right, both). C68_stuck: an execution ends in a state without way out exactly if both buttons were pressed on a page Path. C68_refuse_partial and C68_sessions_partial: refusal is possible without such a press, and always for attestation and signing. C68_same and C68_back: without such a press, executions with the engine are those of Model/Device. The engine (ux_flow_init, next, prev, validate, relayout) follows the published SDK, whose sources are not in the repository; the finding depends on it. The division of one page into several screens is not modelled."
  },
  {
   "property": "C69",
   "status": "partial",
   "theorems": [
    "Ergo.C69_command",
    "Ergo.C69_same",
    "Ergo.C69_back",
    "Ergo.C69_alive",
    "Ergo.C69_count",
    "Ergo.C69_size",
    "Ergo.C69_order_partial",
    "Ergo.C69_negation"
   ],
   "note": "All parts proved for every execution of the loop (C69_command, C69_same, C69_alive, C69_count, C69_size); the order of the answers is false as stated (C69_negation) and proved for hosts that do not send while the user is being asked (C69_order_partial). The I/O functions follow the published SDK. C69_back: the loop does start, and every execution of the device with commands of up to 255 bytes is one of the loop."
  },
  {
   "property": "C70",
   "status": "proved",
   "theorems": [
    "Ergo.C70_sign",
    "Ergo.C70_attest",
    "Ergo.C70_asked",
    "Ergo.C70_signature",
    "Ergo.C70_same",
    "Ergo.C70_sameAttest"
   ],
   "note": "C70_sign, C70_attest: the device equals the device at the end of the replayed events. C70_asked: up to the page on display. C70_signature: the signature is the last answer of the replay. C70_same, C70_sameAttest: equal continuations. `Live` excludes the sessions ended by the one error that the observer counts as harmless (0x20/0x01 with a wrong P2)."
  },
  {
   "property": "C71",
   "status": "proved",
   "theorems": [
    "Ergo.C71_hash",
    "Ergo.C71_pieces",
    "Ergo.C71_context",
    "Ergo.C71_length"
   ],
   "note": "The specification is written after RFC 7693 (constants as roots of primes, assignments of G in order, columns and diagonals), separately from the model. No bound on the length of the message. Keyed hashing, not used, is left out."
  },
  {
   "property": "C72",
   "status": "proved",
   "theorems": [
    "Ergo.C72_order",
    "Ergo.C72_mul",
    "Ergo.C72_public",
    "Ergo.C72_session",
    "Ergo.C72_extract",
    "Ergo.C72_reuse"
   ],
   "note": "The group of the curve is Mathlib's; primality by Pocklington certificates checked by the kernel. The formulas stand for cx_ecfp_scalar_mult and cx_ecfp_generate_pair, whose sources are not in the repository. The range check of schnorr.c:43,65 lets a scalar equal to the order through; it is refused only because the multiple has no coordinates."
  },
  {
   "property": "C73",
   "status": "partial",
   "theorems": [
    "Ergo.C73_accepted_partial",
    "Ergo.C73_exact_partial",
    "Ergo.C73_negation",
    "Ergo.C73_size_negation"
   ],
   "note": "False as stated: C73_negation (export of m/44'/429', export of a path with a component that is not hardened, signing on network 5, signing with chain 7, a box with 21 tokens: documented and refused; signing with the known token is asked) and C73_size_negation (fee script in an output announced with 105 bytes). Proved: everything accepted is documented (C73_accepted_partial), and a documented request is refused exactly if it misses one of the listed further demands, its keys, or the screen (C73_exact_partial). The start commands only; the lengths of the others are C45."
  },
  {
   "property": "C74",
   "status": "proved",
   "theorems": [
    "Ergo.C74_shown",
    "Ergo.C74_loss"
   ],
   "note": "C74_shown (outputs and their screens), C74_loss (sums and the last screen). Outputs given up half-way are the subject of C01, C02; that hidden change goes to keys of this device is C35; that the values of inputs are those of attested boxes is C09, C43."
  },
  {
   "property": "C75",
   "status": "proved",
   "theorems": [
    "Ergo.C75_event",
    "Ergo.C75_mirror",
    "Ergo.C75_approvals"
   ],
   "note": "C75_event (one event), C75_mirror (executions), C75_approvals (C03 with failures). In C75_event key derivations and generations fail each on its own; the curve multiplication of the start of signing fails for the whole command or not at all (an attempt that fails and is repeated, schnorr.c:32-86, only costs a random draw). Failures of hashing and drawing are a separate step of the executions (Faulty.fault, Faulty.address); that every failing call of the code leads to one of these steps is C86."
  },
  {
   "property": "C76",
   "status": "proved",
   "theorems": [
    "Ergo.C76_wallet",
    "Ergo.C76_silent"
   ],
   "note": "C76_wallet (relational, whole executions), C76_silent (replies before any approval). The two worlds share the hash functions, have keys for the same paths and find ephemeral keys for the same commands (SameEvent, as in C59). Timing and power consumption are outside the model."
  },
  {
   "property": "C77",
   "status": "proved",
   "theorems": [
    "Ergo.C77_within",
    "Ergo.C77_exact"
   ],
   "note": "C77_within (for every transaction that the description says, without assumptions on the tag), C77_exact (existence, with the assumptions of C09). That every announced output was sent in full is a hypothesis because of C01/C02 (an output may be given up before it is complete)."
  },
  {
   "property": "C78",
   "status": "proved",
   "theorems": [
    "Ergo.C78_refused",
    "Ergo.C78_accepted"
   ],
   "note": "C78_refused (status word if and only if first unmet demand), C78_accepted. The demands are written over the description of the transaction (Spec/Why), not over the states of the device. Two peculiarities show in the list: the length of the part of a frame under its tag is taken modulo 256, so a frame that is too short for its token count may be refused for its tag; own scripts for an output of which part of a raw script was sent are refused only after the value was checked."
  },
  {
   "property": "C79",
   "status": "proved",
   "theorems": [
    "Ergo.C79_refused",
    "Ergo.C79_accepted"
   ],
   "note": "C79_refused (status word if and only if first unmet demand), C79_accepted. Extends C78 to all bytes and all commands; the demands (Spec/WhyAll) are written over what was sent and answered so far (know) and whether a question is on the screen."
  },
  {
   "property": "C80",
   "status": "proved",
   "theorems": [
    "Ergo.C80_question",
    "Ergo.C80_reply",
    "Ergo.C80_run",
    "Ergo.C80_models"
   ],
   "note": "C80_question (question on the screen and meaning of both buttons), C80_reply (every reply), C80_run (a whole execution is the table applied to its events), C80_models (Nano S and the others reply the same). The table (Spec/Reference) is put together from the specifications of the other properties. The exception of C80_reply is the negation of C47; C81_undefined says exactly when it happens."
  },
  {
   "property": "C81",
   "status": "proved",
   "theorems": [
    "Ergo.C81_display",
    "Ergo.C81_reply",
    "Ergo.C81_run",
    "Ergo.C81_defined",
    "Ergo.C81_undefined"
   ],
   "note": "C81_display (the page on the display), C81_reply (every reply, without exception), C81_run (the display after a sequence of events), C81_defined (which sequences of events have an execution), C81_undefined (the exact position at which paging is undefined). The pages are in Spec/Display; the order of tokens comes from an invariant on the token table (TableGrows)."
  },
  {
   "property": "C82",
   "status": "proved",
   "theorems": [
    "Ergo.C82_decode",
    "Ergo.C82_defined",
    "Ergo.C82_roundtrip",
    "Ergo.C82_display",
    "Ergo.C82_paid"
   ],
   "note": "C82_decode (what the decoder accepts, exactly), C82_defined, C82_roundtrip, C82_display (every address on the display), C82_paid (the script of the output from the address read). The exception of the decoder, texts of one character such as \"1\" for the single byte 0, is in C82_decode and its example; no address is concerned."
  },
  {
   "property": "C83",
   "status": "proved",
   "theorems": [
    "Ergo.C83_kept",
    "Ergo.C83_compare"
   ],
   "note": "C83_kept (the bytes), C83_compare (the comparison). This justifies that Model/P2pk has last_approved_change as a list that is empty when a transaction starts. Which accesses a command makes is read from the source; their order and contents are arbitrary here."
  },
  {
   "property": "C84",
   "status": "proved",
   "theorems": [
    "Ergo.C84_last",
    "Ergo.C84_decision"
   ],
   "note": "C84_last (the bytes), C84_decision (the question). Connects the memory of C83 with the runs of the device: Spec/LayoutRun says which members a step of the session writes (read from the source), offsets and bytes are arbitrary. What the comparison of the bytes accepts is C34."
  },
  {
   "property": "C85",
   "status": "proved",
   "theorems": [
    "Ergo.C85_transaction",
    "Ergo.C85_output",
    "Ergo.C85_request",
    "Ergo.C85_account"
   ],
   "note": "C85_transaction, C85_output, C85_request: equivalences, so they say both what the user can rely on and what the screens leave open. C85_account: account exports. C36_device_negation, C41_device_negation_output and C41_device_negation_transaction are pairs of sessions with different paths or tokens and the same pages."
  },
  {
   "property": "C86",
   "status": "proved",
   "theorems": [
    "Ergo.C86_run",
    "Ergo.C86_event",
    "Ergo.C86_success",
    "Ergo.C86_mirror",
    "Ergo.C86_approvals"
   ],
   "note": "C86_event (one event), C86_success, C86_run and C86_mirror (executions; they are executions with failures in the sense of C75), C86_approvals. Model/Failing.lean repeats the model with every checked call put in, numbered in the order of the code within an event. Not counted: cx_hmac_sha256, whose result the code does not check (attestation tag), and the random draws, which are inputs."
  },
  {
   "property": "C87",
   "status": "partial",
   "theorems": [
    "Ergo.C87_run_partial",
    "Ergo.C87_tag_partial",
    "Ergo.C87_approvals_partial",
    "Ergo.C87_negation"
   ],
   "note": "False as stated: C87_negation. Proved instead: C87_tag_partial, C87_run_partial (with C86 for the other calls and C75 for executions), C87_approvals_partial. A failed call is taken to leave the 32 bytes of its array as they were (any 32 bytes)."
  },
  {
   "property": "C88",
   "status": "proved",
   "theorems": [
    "Ergo.C88_event",
    "Ergo.C88_reached",
    "Ergo.C88_session",
    "Ergo.C88_sharp",
    "Ergo.C88_reached_sharp"
   ],
   "note": "Counted are the calls that Model/Failing.lean makes individually failing; the authentication function, the random generator and memory functions are not counted, nor is the time of one call. The number of draws of a session number is not bounded (C47)."
  },
  {
   "property": "C89",
   "status": "proved",
   "theorems": [
    "Ergo.C89_signed",
    "Ergo.C89_refuse"
   ],
   "note": "C89_signed, C89_refuse. Works has every event handled with working calls, in the model with failing calls (Model/Failing)."
  },
  {
   "property": "C90",
   "status": "proved",
   "theorems": [
    "Ergo.C90_number",
    "Ergo.C90_count",
    "Ergo.C90_erg",
    "Ergo.C90_base58",
    "Ergo.C90_id",
    "Ergo.C90_path",
    "Ergo.C90_used"
   ],
   "note": "C90_number, C90_erg, C90_base58, C90_id, C90_path, C90_used. format_u64, format_fpu64 and format_hex are modelled from the published SDK (not in /repo). The array holds zeros before the call, as in stx_ui.c. C90_count: a number behind a static text."
  },
  {
   "property": "C91",
   "status": "proved",
   "theorems": [
    "Ergo.C91_key",
    "Ergo.C91_signature",
    "Ergo.C91_session"
   ],
   "note": "C91_key, C91_signature, C91_session. Hypothesis: the multiplication of the SDK is that of secp256k1 (secpMul, shown correct in C72). The generator is taken as ideal: all tapes equally likely. The count N is given by (n-1)*N + (2^256-(n-1))^100 = 2^25600."
  },
  {
   "property": "C92",
   "status": "proved",
   "theorems": [
    "Ergo.C92_tags",
    "Ergo.C92_presented",
    "Ergo.C92_accepted"
   ],
   "note": "C92_tags, C92_presented, C92_accepted. Together with C09 (hypothesis Unforged) this bounds how often the hypothesis can fail. The unknown tag models HMAC-SHA256 as a random function at one point."
  },
  {
   "property": "C93",
   "status": "proved",
   "theorems": [
    "Ergo.C93_command",
    "Ergo.C93_button",
    "Ergo.C93_sent",
    "Ergo.C93_pressed",
    "Ergo.C93_all",
    "Ergo.C93_never"
   ],
   "note": "C93_command, C93_button: no other words. C93_sent, C93_pressed: every word of the table occurs (explicit executions on two toy devices). C93_all, C93_never: the whole of sw.h. Failing calls of the operating system (C45, C47, C73, C87) send 0xE00F and others and are outside of this table."
  },
  {
   "property": "C94",
   "status": "proved",
   "theorems": [
    "Ergo.C94_write",
    "Ergo.C94_read",
    "Ergo.C94_round_trip",
    "Ergo.C94_prefix",
    "Ergo.C94_forms",
    "Ergo.C94_shortest"
   ],
   "note": "C94_write, C94_read, C94_round_trip, C94_prefix, C94_forms, C94_shortest. The application itself does not call these functions."
  },
  {
   "property": "C95",
   "status": "proved",
   "theorems": [
    "Ergo.C95_presented",
    "Ergo.C95_accepted",
    "Ergo.C95_any"
   ],
   "note": "C95_any (probability over all bodies), C95_accepted and C95_presented (any finite set of bodies, counted). Induction over the game tree: the possible tags remain a product set. The authentication function itself (HMAC-SHA256) is idealised as a random function under the session key."
  },
  {
   "property": "C96",
   "status": "proved",
   "theorems": [
    "Ergo.C96_unforged",
    "Ergo.C96_inputs",
    "Ergo.C96_signed",
    "Ergo.C96_worlds"
   ],
   "note": "C96_unforged, C96_inputs, C96_signed, C96_worlds (every authentication function is counted). C95 discharges the hypothesis Unforged of C09 and C77."
  },
  {
   "property": "C97",
   "status": "proved",
   "theorems": [
    "Ergo.C97_presented",
    "Ergo.C97_accepted",
    "Ergo.C97_unforged",
    "Ergo.C97_signed"
   ],
   "note": "C97_presented (counting, induction over power cycles and over the game tree of each), C97_accepted, C97_unforged, C97_signed."
  },
  {
   "property": "C98",
   "status": "partial",
   "theorems": [
    "Ergo.C98_negation",
    "Ergo.C98_seen",
    "Ergo.C98_only",
    "Ergo.C98_few_partial"
   ],
   "note": "False with a memcmp that stops at the first difference: C98_negation gives a strategy that succeeds for every one of the 2^128 tags with at most 4081 attempts (each needs the approval of a signing session; without a clock 4081 attempts succeed for 4081 tags, C92). What holds: C98_seen (what exactly the time tells), C98_only (other events tell nothing) and C98_few_partial (with q+1 attempts success for at most 18^q of the tags). memcmp itself is not in the repository."
  },
  {
   "property": "C99",
   "status": "proved",
   "theorems": [
    "Ergo.C99_refused",
    "Ergo.C99_next",
    "Ergo.C99_among",
    "Ergo.C99_accepted",
    "Ergo.C99_own",
    "Ergo.C99_signed"
   ],
   "note": "C99_refused and C99_next (counting of refusals against approvals), C99_among (game over all power cycles; only refusals for the tag cost anything, other frames do not reach the comparison), C99_accepted, C99_own, C99_signed. The time of the comparison is not seen here (C98)."
  }
 ]
}

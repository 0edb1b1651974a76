{
 "claims": [
  {
   "property": "C01",
   "status": "proved",
   "theorems": [
    "Wifinfo.c01_decoder_memory_safe"
   ],
   "note": "Every byte history, every initial buffer content."
  },
  {
   "property": "C02",
   "status": "proved",
   "theorems": [
    "Wifinfo.c02_ready_iff_valid_frame",
    "Wifinfo.c02_published_content",
    "Wifinfo.c02_frame_unique"
   ],
   "note": "Soundness and completeness against the frame grammar of Spec/Frame.lean, plus uniqueness of the parse."
  },
  {
   "property": "C03",
   "status": "proved",
   "theorems": [
    "Wifinfo.c03_meter_round_trip"
   ],
   "note": "Round trip from the meter-side encoder."
  },
  {
   "property": "C04",
   "status": "proved",
   "theorems": [
    "Wifinfo.c04_text_substitution_rejected",
    "Wifinfo.c04_checksum_substitution_rejected",
    "Wifinfo.c04_control_substitution_rejected"
   ],
   "note": "Text, separator, checksum and control-byte substitutions. The separator before the checksum is not covered by the checksum algorithm itself (DESIGN.md)."
  },
  {
   "property": "C05",
   "status": "partial",
   "theorems": [
    "Wifinfo.c05_refuted",
    "Wifinfo.c05_pairs_partial",
    "Wifinfo.c05_exact"
   ],
   "note": "The claim as stated is false (c05_refuted: a one-string group); c05_pairs_partial holds when every group has a separator inside its text, and c05_exact tells exactly what is listed for every frame."
  },
  {
   "property": "C06",
   "status": "proved",
   "theorems": [
    "Wifinfo.c06_resynchronisation"
   ],
   "note": "From the STX on, the outputs are those of a fresh decoder."
  },
  {
   "property": "C07",
   "status": "proved",
   "theorems": [
    "Wifinfo.c07_ready_only_after_etx",
    "Wifinfo.c07_next_byte_withdraws",
    "Wifinfo.c07_each_frame_once",
    "Wifinfo.c07_publications"
   ],
   "note": "One publication per valid frame of the stream."
  },
  {
   "property": "C08",
   "status": "proved",
   "theorems": [
    "Wifinfo.c08_published_size",
    "Wifinfo.c08_too_long_rejected"
   ],
   "note": "Length bounds and rejection of longer frames."
  },
  {
   "property": "C09",
   "status": "proved",
   "theorems": [
    "Wifinfo.c09_lookup",
    "Wifinfo.c09_lookup_groups",
    "Wifinfo.c09_lookup_no_frame"
   ],
   "note": "For the decoder frame and for its copy, after any history."
  },
  {
   "property": "C10",
   "status": "proved",
   "theorems": [
    "Wifinfo.c10_iteration",
    "Wifinfo.c10_iteration_groups",
    "Wifinfo.c10_iteration_no_frame"
   ],
   "note": "Full iteration, also on the empty object."
  },
  {
   "property": "C11",
   "status": "proved",
   "theorems": [
    "Wifinfo.c11_leading_zeros"
   ],
   "note": "Any C string in any initialised buffer; the empty text counts as digits-only."
  },
  {
   "property": "C12",
   "status": "proved",
   "theorems": [
    "Wifinfo.c12_integer",
    "Wifinfo.c12_integer_exact"
   ],
   "note": "Value modulo 2^32, exact below."
  },
  {
   "property": "C13",
   "status": "proved",
   "theorems": [
    "Wifinfo.c13_dump_safe",
    "Wifinfo.c13_dump_content",
    "Wifinfo.c13_one_byte_buffer_overflows"
   ],
   "note": "Safety for every buffer of at least two bytes, content for 350 bytes or more; a one-byte buffer overflows (shown)."
  },
  {
   "property": "C14",
   "status": "proved",
   "theorems": [
    "Wifinfo.c14_watt_total",
    "Wifinfo.c14_watt_default",
    "Wifinfo.c14_long_period_divides_by_zero"
   ],
   "note": "Default period and any period up to 24 days; a longer period can divide by zero (shown)."
  },
  {
   "property": "C15",
   "status": "partial",
   "theorems": [
    "Wifinfo.c15_exact",
    "Wifinfo.c15_slope_partial",
    "Wifinfo.c15_refuted",
    "Wifinfo.c15_refuted_clock"
   ],
   "note": "Exact on plausible histories, the clock being set at any time included: c15_exact gives the value with the product modulo 2^32, right if and only if the energy difference is at most 1193 Wh or the dates are the same; refuted above (c15_refuted), and when the clock is set by nearly a multiple of 2^32 ms (c15_refuted_clock)."
  },
  {
   "property": "C16",
   "status": "proved",
   "theorems": [
    "Wifinfo.c16_ring"
   ],
   "note": "Ring contents after any history of frames."
  },
  {
   "property": "C17",
   "status": "partial",
   "theorems": [
    "Wifinfo.c17_exact",
    "Wifinfo.c17_ptec_partial",
    "Wifinfo.c17_refuted_long",
    "Wifinfo.c17_refuted_empty"
   ],
   "note": "False as stated for values of eight characters or more and for an empty first value (c17_refuted_*); c17_exact tells for every sequence of frames exactly when a notification is sent, the configuration may change between frames."
  },
  {
   "property": "C18",
   "status": "partial",
   "theorems": [
    "Wifinfo.c18_thresholds_partial",
    "Wifinfo.c18_alternate",
    "Wifinfo.c18_exact"
   ],
   "note": "Alternation without restriction; c18_exact tells for every sequence of frames exactly when each notification is sent: as stated, save that a power of zero is ignored (see C19)."
  },
  {
   "property": "C19",
   "status": "partial",
   "theorems": [
    "Wifinfo.c19_drop_partial",
    "Wifinfo.c19_refuted"
   ],
   "note": "False as stated (c19_refuted: a power of zero is ignored); holds for any other power (c19_drop_partial, c18_exact)."
  },
  {
   "property": "C20",
   "status": "proved",
   "theorems": [
    "Wifinfo.c20_overload",
    "Wifinfo.c20_alternate"
   ],
   "note": "Every sequence of frames, the configuration may change between frames."
  },
  {
   "property": "C21",
   "status": "proved",
   "theorems": [
    "Wifinfo.c21_destination",
    "Wifinfo.c21_no_host",
    "Wifinfo.c21_no_periodic"
   ],
   "note": "Every configuration, state, timers, sequence of frames."
  },
  {
   "property": "C22",
   "status": "proved",
   "theorems": [
    "Wifinfo.c22_total",
    "Wifinfo.c22_order",
    "Wifinfo.c22_request",
    "Wifinfo.c22_delivered"
   ],
   "note": "Every state; also absence of fault for configurations with a safe URL (C24), and the content of the requests."
  },
  {
   "property": "C23",
   "status": "proved",
   "theorems": [
    "Wifinfo.c23_expand",
    "Wifinfo.c23_expand_meter",
    "Wifinfo.c23_types"
   ],
   "note": "Every template of the documented form that fits the setting, for every reachable frame."
  },
  {
   "property": "C24",
   "status": "partial",
   "theorems": [
    "Wifinfo.c24_exact",
    "Wifinfo.c24_safe_partial",
    "Wifinfo.c24_form_partial",
    "Wifinfo.c24_form_exact",
    "Wifinfo.c24_refuted"
   ],
   "note": "False as stated (c24_refuted: a URL of 150 bytes ending with ~ is read one byte past its end); c24_exact and c24_form_exact tell exactly which contents fault: 150 bytes that end inside a name opened by ~; everything else is safe."
  },
  {
   "property": "C25",
   "status": "proved",
   "theorems": [
    "Wifinfo.c25_jeedom",
    "Wifinfo.c25_reachable"
   ],
   "note": "Every configuration with terminated texts and every reachable frame."
  },
  {
   "property": "C26",
   "status": "proved",
   "theorems": [
    "Wifinfo.c26_emoncms",
    "Wifinfo.c26_reachable"
   ],
   "note": "Every configuration with terminated texts and every reachable frame."
  },
  {
   "property": "C27",
   "status": "partial",
   "theorems": [
    "Wifinfo.c27_dict_partial",
    "Wifinfo.c27_meter_partial",
    "Wifinfo.c27_refuted_empty_value",
    "Wifinfo.c27_refuted_quote",
    "Wifinfo.c27_safe",
    "Wifinfo.c27_no_frame"
   ],
   "note": "False as stated for an empty value or a quote (c27_refuted_*). The exact condition is proved: for every published frame the text is read back as the frame if and only if no text needs a JSON escape and no value is empty; the builder is always safe."
  },
  {
   "property": "C28",
   "status": "partial",
   "theorems": [
    "Wifinfo.c28_array_partial",
    "Wifinfo.c28_meter_partial",
    "Wifinfo.c28_no_frame",
    "Wifinfo.c28_safe",
    "Wifinfo.c28_refuted"
   ],
   "note": "False as stated with a quote in a value (c28_refuted). The exact condition is proved: read back as the frame if and only if no text needs a JSON escape, empty values included; the builder is always safe."
  },
  {
   "property": "C29",
   "status": "proved",
   "theorems": [
    "Wifinfo.c29_save_then_read",
    "Wifinfo.c29_identical"
   ],
   "note": "Any state with terminated texts; reboot on the flash left by a successful write."
  },
  {
   "property": "C30",
   "status": "proved",
   "theorems": [
    "Wifinfo.c30_burst",
    "Wifinfo.c30_one_byte",
    "Wifinfo.c30_two_bytes",
    "Wifinfo.c30_bits",
    "Wifinfo.c30_boot"
   ],
   "note": "Any burst within 16 bits, so any byte or two adjacent bytes; any one, two or odd number of bits anywhere."
  },
  {
   "property": "C31",
   "status": "proved",
   "theorems": [
    "Wifinfo.c31_valid",
    "Wifinfo.c31_invalid",
    "Wifinfo.c31_second_boot"
   ],
   "note": "Any flash content, any outcome of the flash writes for the running configuration; second boot when the last write succeeded."
  },
  {
   "property": "C32",
   "status": "proved",
   "theorems": [
    "Wifinfo.c32_terminated",
    "Wifinfo.c32_safe"
   ],
   "note": "All histories of boots, forms, resets, Wi-Fi set-ups and console commands; no operation leaves its field."
  },
  {
   "property": "C33",
   "status": "proved",
   "theorems": [
    "Wifinfo.c33_form",
    "Wifinfo.c33_ranges"
   ],
   "note": "From any state, any arguments."
  },
  {
   "property": "C34",
   "status": "proved",
   "theorems": [
    "Wifinfo.c34_restricted"
   ],
   "note": "From any reachable state, any arguments."
  },
  {
   "property": "C35",
   "status": "proved",
   "theorems": [
    "Wifinfo.c35_restricted_json",
    "Wifinfo.c35_replace"
   ],
   "note": "Any two configurations that agree on the public settings."
  },
  {
   "property": "C36",
   "status": "partial",
   "theorems": [
    "Wifinfo.c36_parses_partial",
    "Wifinfo.c36_parses_restricted_partial",
    "Wifinfo.c36_safe",
    "Wifinfo.c36_refuted"
   ],
   "note": "False as stated with a quote in a text (c36_refuted). The exact condition is proved: for every reachable configuration the text is read back as the settings if and only if no text needs a JSON escape."
  },
  {
   "property": "C37",
   "status": "partial",
   "theorems": [
    "Wifinfo.c37_size",
    "Wifinfo.c37_round_trip",
    "Wifinfo.c37_tool_reads",
    "Wifinfo.c37_tool_checksum",
    "Wifinfo.c37_exact_text_fails"
   ],
   "note": "Size, round trip and checksum hold for every configuration, and every text up to its NUL. False as stated for the raw text that the external tool shows, which may keep bytes after a NUL (c37_exact_text_fails)."
  },
  {
   "property": "C38",
   "status": "proved",
   "theorems": [
    "Wifinfo.c38_no_save"
   ],
   "note": "Any arguments without the field."
  },
  {
   "property": "C39",
   "status": "partial",
   "theorems": [
    "Wifinfo.c39_handlers_partial",
    "Wifinfo.c39_refuted"
   ],
   "note": "False as stated (c39_refuted: the upload callback of /update is not protected); holds for every handler."
  },
  {
   "property": "C40",
   "status": "partial",
   "theorems": [
    "Wifinfo.c40_handlers_partial",
    "Wifinfo.c40_refuted"
   ],
   "note": "False as stated (c40_refuted: the upload callback of /update is not protected); holds for every handler."
  },
  {
   "property": "C41",
   "status": "partial",
   "theorems": [
    "Wifinfo.c41_answer_partial",
    "Wifinfo.c41_refuted",
    "Wifinfo.c41_exact"
   ],
   "note": "False as stated (c41_refuted: more than 255 arguments, the loop never ends); holds up to 255 arguments, and c41_exact tells exactly when: a value is always sent, the error page if and only if there are at most 255 arguments."
  },
  {
   "property": "C42",
   "status": "proved",
   "theorems": [
    "Wifinfo.c42_at_most_two",
    "Wifinfo.c42_third"
   ],
   "note": "After a boot, any sequence of events (requests, uploads, meter bytes, connection losses, commands, restarts)."
  },
  {
   "property": "C43",
   "status": "proved",
   "theorems": [
    "Wifinfo.c43_broadcast",
    "Wifinfo.c43_nodup",
    "Wifinfo.c43_same_events"
   ],
   "note": "Any client list and connection state; all clients that stay receive the same sequence over any run."
  },
  {
   "property": "C44",
   "status": "partial",
   "theorems": [
    "Wifinfo.c44_read_back_partial",
    "Wifinfo.c44_refuted_tight",
    "Wifinfo.c44_refuted_long",
    "Wifinfo.c44_exact",
    "Wifinfo.c44_opens"
   ],
   "note": "False as stated (c44_refuted_tight: fewer than 63 bytes after the names, c44_refuted_long: names of 64 bytes). c44_exact tells for every image, names of any length and any room, which file a path opens; c44_opens: a file with a name of at most 63 bytes opens if and only if the 63 bytes from the beginning of its name are in the partition. c44_read_back_partial gives a condition on the sizes that is enough."
  },
  {
   "property": "C45",
   "status": "partial",
   "theorems": [
    "Wifinfo.c45_opened",
    "Wifinfo.c45_absent_partial",
    "Wifinfo.c45_refuted",
    "Wifinfo.c45_refuted_empty"
   ],
   "note": "False as stated (c45_refuted: names that agree on 63 bytes, c45_refuted_empty: the empty path with nothing after the names); what is opened is always a member up to 63 bytes (c45_opened), missing names are refused otherwise, same hash or not. c44_exact tells exactly which paths open."
  },
  {
   "property": "C46",
   "status": "proved",
   "theorems": [
    "Wifinfo.c46_reads"
   ],
   "note": "Every file, position, buffer and size."
  },
  {
   "property": "C47",
   "status": "proved",
   "theorems": [
    "Wifinfo.c47_seeks"
   ],
   "note": "Every sequence of reads and seeks."
  },
  {
   "property": "C48",
   "status": "partial",
   "theorems": [
    "Wifinfo.c48_listing_partial",
    "Wifinfo.c48_sizes",
    "Wifinfo.c48_refuted",
    "Wifinfo.c48_exact"
   ],
   "note": "False as stated (c48_refuted: nothing follows the names, a file is listed with the name of another one). c48_exact: the listing is right if and only if all names have at most 63 bytes and can be read inside the partition; sizes always right (c48_sizes)."
  },
  {
   "property": "C49",
   "status": "proved",
   "theorems": [
    "Wifinfo.c49_size",
    "Wifinfo.c49_refused",
    "Wifinfo.c49_accepted"
   ],
   "note": "Every set of files and every partition size."
  },
  {
   "property": "C50",
   "status": "proved",
   "theorems": [
    "Wifinfo.c50_split",
    "Wifinfo.c50_every_stream",
    "Wifinfo.c50_unchanged",
    "Wifinfo.c50_command",
    "Wifinfo.c50_bounded",
    "Wifinfo.c50_meter",
    "Wifinfo.c50_tab_frame_lost"
   ],
   "note": "Every byte stream.  c50_tab_frame_lost records that TAB-separated frames go to the console in that build."
  },
  {
   "property": "C51",
   "status": "proved",
   "theorems": [
    "Wifinfo.c51_heard",
    "Wifinfo.c51_ignored",
    "Wifinfo.c51_listens"
   ],
   "note": "Any sequence of events; the decoder has received exactly the bytes sent outside uploads."
  },
  {
   "property": "C52",
   "status": "partial",
   "theorems": [
    "Wifinfo.c52_recovered_partial",
    "Wifinfo.c52_refuted",
    "Wifinfo.c52_exact"
   ],
   "note": "False as stated (c52_refuted: keys longer than 32 bytes are cut); c52_exact: the first 32 bytes are stored, right if and only if there are no more."
  },
  {
   "property": "C53",
   "status": "proved",
   "theorems": [
    "Wifinfo.c53_bounded",
    "Wifinfo.c53_reachable"
   ],
   "note": "Every sequence of answers of the Wi-Fi status."
  },
  {
   "property": "C54",
   "status": "proved",
   "theorems": [
    "Wifinfo.c54_uptime"
   ],
   "note": "Every value of the microsecond counter."
  },
  {
   "property": "C55",
   "status": "partial",
   "theorems": [
    "Wifinfo.c55_average",
    "Wifinfo.c55_exact",
    "Wifinfo.c55_percent_partial",
    "Wifinfo.c55_refuted"
   ],
   "note": "False as stated (c55_refuted); holds if and only if the last ten seconds have at most 85000 turns on average (c55_average, c55_exact up to 40 million turns per second)."
  },
  {
   "property": "C56",
   "status": "proved",
   "theorems": [
    "Wifinfo.c56_survives_reboot",
    "Wifinfo.c56_settings"
   ],
   "note": "When the flash write succeeds."
  },
  {
   "property": "C57",
   "status": "partial",
   "theorems": [
    "Wifinfo.c57_one_event",
    "Wifinfo.c57_parses_partial"
   ],
   "note": "One event per frame for every client, without restriction; the JSON of the event parses to the frame exactly under the conditions of C27."
  },
  {
   "property": "C58",
   "status": "proved",
   "theorems": [
    "Wifinfo.c58_tool_writes"
   ],
   "note": "Every configuration file with numbers that fit their fields."
  },
  {
   "property": "C59",
   "status": "partial",
   "theorems": [
    "Wifinfo.c59_refuted",
    "Wifinfo.c59_ok_partial",
    "Wifinfo.c59_answer"
   ],
   "note": "False as stated (c59_refuted: the result of the flash write is ignored); holds when the write succeeds."
  },
  {
   "property": "C60",
   "status": "partial",
   "theorems": [
    "Wifinfo.c60_request",
    "Wifinfo.c60_step",
    "Wifinfo.c60_run_partial",
    "Wifinfo.c60_exact",
    "Wifinfo.c60_run_exact",
    "Wifinfo.c60_session_partial"
   ],
   "note": "False as stated: URL settings of 150 bytes that end inside a name opened by ~ (c24_refuted, c24_exact), more than 255 arguments (c41_refuted), the system page with a file system of size zero (c61_system_safe). c60_session_partial covers every history of any length whose inputs avoid these cases (URLs posted or found in a flash written by something else, arguments, file system size); c60_run_partial has the same conclusion for conditions on the states. c60_exact and c60_run_exact say exactly which events make the device fault: a request of more than 255 arguments that would be answered 404 without them, the system page without file system to a client who would otherwise get it, and a meter byte at which a notification by HTTP is due when the URL setting ends inside a name; every other history goes through."
  },
  {
   "property": "C61",
   "status": "partial",
   "theorems": [
    "Wifinfo.c61_system_partial",
    "Wifinfo.c61_system_safe",
    "Wifinfo.c61_scan_partial",
    "Wifinfo.c61_files_partial",
    "Wifinfo.c61_refuted_scan",
    "Wifinfo.c61_refuted_system",
    "Wifinfo.c61_refuted_files"
   ],
   "note": "False as stated with a quote in a name (c61_refuted_*). The exact conditions are proved: the lists and the system page are read back as the values if and only if the names need no JSON escape (for the system page, given that the texts of the SDK need none)."
  },
  {
   "property": "C62",
   "status": "proved",
   "theorems": [
    "Wifinfo.c62_system",
    "Wifinfo.c62_lists"
   ],
   "note": "Any two devices that agree on the public rows."
  },
  {
   "property": "C63",
   "status": "partial",
   "theorems": [
    "Wifinfo.c63_one_answer_partial",
    "Wifinfo.c63_refuted",
    "Wifinfo.c63_update_exact"
   ],
   "note": "False as stated for POST /update (c63_refuted); c63_update_exact tells exactly how many answers it gets; holds for every other request."
  },
  {
   "property": "C64",
   "status": "proved",
   "theorems": [
    "Wifinfo.c64_restricted"
   ],
   "note": "Any two reachable devices that agree on the public settings, any request."
  },
  {
   "property": "C65",
   "status": "partial",
   "theorems": [
    "Wifinfo.c65_exact",
    "Wifinfo.c65_period_partial",
    "Wifinfo.c65_form",
    "Wifinfo.c65_refuted"
   ],
   "note": "False as stated for periods above 4294967 s put by the external tool (c65_refuted); c65_exact: every period is the one asked for modulo 2^32 ms; always right after a form post (c65_form)."
  },
  {
   "property": "C66",
   "status": "proved",
   "theorems": [
    "Wifinfo.c66_info"
   ],
   "note": "Every set of files and every partition size."
  },
  {
   "property": "C67",
   "status": "proved",
   "theorems": [
    "Wifinfo.c67_mount"
   ],
   "note": "Every partition content."
  },
  {
   "property": "C68",
   "status": "partial",
   "theorems": [
    "Wifinfo.c68_safe_partial",
    "Wifinfo.c68_refuted_count",
    "Wifinfo.c68_refuted_name"
   ],
   "note": "False as stated (c68_refuted_count, c68_refuted_name); holds for every partition whose header and name pointers are sane, whatever else is corrupted."
  },
  {
   "property": "C69",
   "status": "partial",
   "theorems": [
    "Wifinfo.c69_contents",
    "Wifinfo.c69_extract_partial",
    "Wifinfo.c69_exact",
    "Wifinfo.c69_refuted"
   ],
   "note": "False as stated (c69_refuted: names that are not ASCII); contents always come back (c69_contents), names if and only if they are printable ASCII (c69_exact)."
  },
  {
   "property": "C70",
   "status": "proved",
   "theorems": [
    "Wifinfo.c70_web",
    "Wifinfo.c70_console"
   ],
   "note": "Every device and client. Assumes that eraseConfig leaves the SDK without Wi-Fi settings at the restart."
  },
  {
   "property": "C71",
   "status": "proved",
   "theorems": [
    "Wifinfo.c71_changes"
   ],
   "note": "Every request on every device whose settings are reachable (NvReach)."
  },
  {
   "property": "C72",
   "status": "partial",
   "theorems": [
    "Wifinfo.c72_home_partial",
    "Wifinfo.c72_refuted",
    "Wifinfo.c72_missing"
   ],
   "note": "False as stated (c72_refuted: without a page the answer is a 304 with a header named \"Location:\", which redirects nobody); holds for every client when the page exists."
  },
  {
   "property": "C73",
   "status": "proved",
   "theorems": [
    "Wifinfo.c73_complete",
    "Wifinfo.c73_form",
    "Wifinfo.c73_answer",
    "Wifinfo.c73_accepts",
    "Wifinfo.c73_history",
    "Wifinfo.c73_restart"
   ],
   "note": "Every history of events from a reachable device; what the updater does with the order to accept is not modelled."
  },
  {
   "property": "C74",
   "status": "partial",
   "theorems": [
    "Wifinfo.c74_value_partial",
    "Wifinfo.c74_special",
    "Wifinfo.c74_stranger",
    "Wifinfo.c74_refuted"
   ],
   "note": "False as stated (c74_refuted: without a user name, a request without credentials gets the error page); holds for requests with the stored credentials."
  },
  {
   "property": "C75",
   "status": "partial",
   "theorems": [
    "Wifinfo.c75_untouched_partial",
    "Wifinfo.c75_untouched_restricted_partial",
    "Wifinfo.c75_refuted_period",
    "Wifinfo.c75_refuted_text",
    "Wifinfo.c75_exact",
    "Wifinfo.c75_exact_restricted"
   ],
   "note": "False as stated (c75_refuted_period: a period that the page does not propose is replaced by 0; c75_refuted_text: with a quote in a text the page cannot be filled and erases everything). Holds for UTF-8 texts without control character, quotation mark and backslash, numbers in range and proposed periods. c75_exact, c75_exact_restricted: with such texts, these conditions on the numbers and the periods are necessary too."
  },
  {
   "property": "C76",
   "status": "partial",
   "theorems": [
    "Wifinfo.c76_stored_partial",
    "Wifinfo.c76_refuted_host",
    "Wifinfo.c76_ascii",
    "Wifinfo.c76_refuted_accent",
    "Wifinfo.c76_refuted_number",
    "Wifinfo.c76_numbers",
    "Wifinfo.c76_exact"
   ],
   "note": "False as stated (c76_refuted_host: names of 17 to 32 characters are cut; c76_refuted_number: ports and thresholds are only limited to five characters; c76_refuted_accent: the page counts characters, the device bytes). Holds for every other entry; c76_ascii: without accents only the names and numbers remain. c76_exact: the limits of the device are the exact condition."
  },
  {
   "property": "C77",
   "status": "proved",
   "theorems": [
    "Wifinfo.c77_simulated",
    "Wifinfo.c77_switches",
    "Wifinfo.c77_setters"
   ],
   "note": "Values of the sizes of a meter: a printable twelve-character address without a dot, indexes below 10^9, and so on (Meterlike, kept by the setters: c77_setters). The clock and the random draws are values of the state."
  },
  {
   "property": "C78",
   "status": "partial",
   "theorems": [
    "Wifinfo.c78_dict_partial",
    "Wifinfo.c78_refuted_adco",
    "Wifinfo.c78_array_partial",
    "Wifinfo.c78_refuted_ptec"
   ],
   "note": "False as stated: the device gives the address as a number, the simulator as a text (c78_refuted_adco); the arrays differ by the trailing dots (c78_refuted_ptec) and the power estimate. Every other member is the same, up to the order."
  },
  {
   "property": "C79",
   "status": "proved",
   "theorems": [
    "Wifinfo.c79_form",
    "Wifinfo.c79_sections",
    "Wifinfo.c79_every",
    "Wifinfo.c79_nested_leaks",
    "Wifinfo.c79_unclosed_shown"
   ],
   "note": "c79_sections gives the restricted page for any list of sections, c79_every shows that every text is such a list. Minification and compression are not modelled. Parts do not nest (c79_nested_leaks) and an unclosed part is shown (c79_unclosed_shown). c79_form: the form of the restricted page."
  },
  {
   "property": "C80",
   "status": "partial",
   "theorems": [
    "Wifinfo.c80_home_partial",
    "Wifinfo.c80_page",
    "Wifinfo.c80_version_partial",
    "Wifinfo.c80_refuted",
    "Wifinfo.c80_exact",
    "Wifinfo.c80_version_exact"
   ],
   "note": "False as stated (c80_refuted: an empty page in an image of the exact size is not found). Holds for names of at most 62 bytes and 63 bytes after the names (Usable), every client with access and every reading by pieces. How the web server reads the file is an argument (Whole). c80_exact and c80_version_exact tell for every image, names of any length and any room, which file is sent (the first one that the name leads to, C44) and when the link to the update page is."
  },
  {
   "property": "C81",
   "status": "partial",
   "theorems": [
    "Wifinfo.c81_names_partial",
    "Wifinfo.c81_chosen",
    "Wifinfo.c81_refuted_case",
    "Wifinfo.c81_refuted_inside",
    "Wifinfo.c81_refuted_dot"
   ],
   "note": "False as stated: capital letters (c81_refuted_case), fs.bin inside the name (c81_refuted_inside), another character in place of the dot (c81_refuted_dot). Holds for name.bin in small letters without another dot; c81_chosen tells exactly which names are accepted and for which command."
  },
  {
   "property": "C82",
   "status": "partial",
   "theorems": [
    "Wifinfo.c82_marks",
    "Wifinfo.c82_arrow_partial",
    "Wifinfo.c82_refuted"
   ],
   "note": "False as stated: after a value with an arrow, a change is not shown (c82_refuted). c82_marks gives exactly what is shown, c82_arrow_partial that an arrow is never wrong and is there when the value before had none."
  },
  {
   "property": "C83",
   "status": "partial",
   "theorems": [
    "Wifinfo.c83_load_partial",
    "Wifinfo.c83_refuted",
    "Wifinfo.c83_not_a_number"
   ],
   "note": "False as stated: the percentage in the tab stays when the load is zero (c83_refuted). The bar is right for all numerals, and the badge is told exactly."
  },
  {
   "property": "C84",
   "status": "proved",
   "theorems": [
    "Wifinfo.c84_pace",
    "Wifinfo.c84_count",
    "Wifinfo.c84_total",
    "Wifinfo.c84_limit"
   ],
   "note": "Any configuration with terminated texts. The class periodicMs is in the ESP8266 core, not in the repository: its documented behaviour is modelled (Model/Clock.lean). Frames 2^32 ms apart are not seen as apart (c84_limit)."
  },
  {
   "property": "C85",
   "status": "proved",
   "theorems": [
    "Wifinfo.c85_jeedom",
    "Wifinfo.c85_emoncms",
    "Wifinfo.c85_http",
    "Wifinfo.c85_stream"
   ],
   "note": "The device with its clock (Model/Timed.lean) from any boot, any history without return to the factory settings (after which the device restarts). URL settings made of the documented variables for the HTTP request (GoodTmpl); the JSON of the event is that of C57."
  },
  {
   "property": "C86",
   "status": "partial",
   "theorems": [
    "Wifinfo.c86_current_partial",
    "Wifinfo.c86_nothing_else",
    "Wifinfo.c86_follows_partial",
    "Wifinfo.c86_restricted_name",
    "Wifinfo.c86_restricted_partial",
    "Wifinfo.c86_refuted_restricted",
    "Wifinfo.c86_refuted_date",
    "Wifinfo.c86_refuted_folder",
    "Wifinfo.c86_failed_minifier"
   ],
   "note": "False as stated: a restricted page stays when its page loses the mark (c86_refuted_restricted), a source put back with an old date is not prepared (c86_refuted_date), a file that takes the place of a folder goes into it (c86_refuted_folder), and pages are empty when html-minifier fails (c86_failed_minifier). Holds for histories where a changed source is newer than what was prepared (c86_follows_partial, c86_restricted_partial); c86_nothing_else tells what stays."
  },
  {
   "property": "C87",
   "status": "partial",
   "theorems": [
    "Wifinfo.c87_full_partial",
    "Wifinfo.c87_restricted_partial",
    "Wifinfo.c87_version_partial",
    "Wifinfo.c87_refuted",
    "Wifinfo.c87_exact"
   ],
   "note": "False as stated when the page loses its mark (c87_refuted). Holds for sources dated after what was prepared (c86_refuted_date), names of at most 63 bytes and images with 63 bytes after the names (c80_refuted); the device shows the folder exactly if it can read its names (c87_exact)."
  },
  {
   "property": "C88",
   "status": "proved",
   "theorems": [
    "Wifinfo.c88_stream",
    "Wifinfo.c88_answer",
    "Wifinfo.c88_run"
   ],
   "note": "Dates (strftime) and texts typed on the console are taken to be on one line; everything since the last start. The reader is an independent transcription of the event stream format of the HTML standard (Spec/EventStream.lean). Client names are the ranks of arrival since the start."
  },
  {
   "property": "C89",
   "status": "partial",
   "theorems": [
    "Wifinfo.c89_page_partial",
    "Wifinfo.c89_before",
    "Wifinfo.c89_refuted_base",
    "Wifinfo.c89_refuted_tempo"
   ],
   "note": "False as stated: with a single-tariff contract both indexes show NaN and the mark of peak hours is set (c89_refuted_base), with the Tempo contract off-peak hours are marked as peak hours (c89_refuted_tempo). Holds for peak/off-peak contracts, frames without quotes and values of at most nine digits; JSON.parse is the reader of Spec/Json.lean, the gauge library is not modelled."
  },
  {
   "property": "C90",
   "status": "proved",
   "theorems": [
    "Wifinfo.c90_wifi",
    "Wifinfo.c90_ap"
   ],
   "note": "Every reachable configuration. For set wifi with an empty name, or set ap without a network configured, the start takes the network of the SDK if it has one (C52), so these cases are excluded after the restart. The splitting of the line into words (SimpleCLI) is not modelled."
  },
  {
   "property": "C91",
   "status": "proved",
   "theorems": [
    "Wifinfo.c91_power_cut",
    "Wifinfo.c91_restart"
   ],
   "note": "Events are atomic: a power cut in the middle of a write of the flash is not an event of the model (a write has the outcomes of Commit, and after an unsuccessful one the flash is what C30 and C31 say). After `esp reset` the device restarts with the factory settings (C70)."
  },
  {
   "property": "C92",
   "status": "partial",
   "theorems": [
    "Wifinfo.c92_periods",
    "Wifinfo.c92_frame_partial",
    "Wifinfo.c92_device_partial",
    "Wifinfo.c92_refuted_base",
    "Wifinfo.c92_refuted_lost",
    "Wifinfo.c92_poll",
    "Wifinfo.c92_refuted_early"
   ],
   "note": "False as stated: the collector ends at the first frame of a contract with a single tariff (c92_refuted_base), when it polls a device that has no frame yet (c92_refuted_early), and can record two measures in a period after the connection was lost (c92_refuted_lost). Proved: the throttling for every sequence of messages (c92_periods), polling (c92_poll), exactly which frames give a measure and what it is (c92_frame_partial), and from the wire of the meter to the measure (c92_device_partial). The database and the Python clients are not modelled."
  },
  {
   "property": "C93",
   "status": "partial",
   "theorems": [
    "Wifinfo.c93_ends",
    "Wifinfo.c93_code",
    "Wifinfo.c93_lines",
    "Wifinfo.c93_same_partial",
    "Wifinfo.c93_refuted"
   ],
   "note": "False as stated: a header included inside a condition is pasted there and lost for the files that come later (c93_refuted, with what cli.cpp and config.cpp say of strncpy_s.h when ENABLE_CLI is not defined). Proved without that: the tool ends (c93_ends), each line of code is there as often as in its file (c93_code), the lines are whole (c93_lines). Partial: the same lines are kept in the same order if headers begin with #pragma once and are included outside of conditions (c93_same_partial). Block comments, continued lines and sub-folders are not known to the model of the preprocessor."
  },
  {
   "property": "C94",
   "status": "partial",
   "theorems": [
    "Wifinfo.c94_exact",
    "Wifinfo.c94_restore_partial",
    "Wifinfo.c94_form",
    "Wifinfo.c94_refuted",
    "Wifinfo.c94_complete",
    "Wifinfo.c94_file"
   ],
   "note": "What is saved is always restored (c94_restore_partial), but not every device can be saved: the tool fails if and only if a stored text is not UTF-8 (c94_exact), which a form post can bring about by cutting a name inside a character (c94_refuted); never if the texts posted, cut to their fields, are UTF-8 (c94_form). A file is restored only if it tells every setting, each of its kind (c94_complete); the device then has the settings that the file tells (c94_file)."
  },
  {
   "property": "C95",
   "status": "partial",
   "theorems": [
    "Wifinfo.c95_shown_partial",
    "Wifinfo.c95_url",
    "Wifinfo.c95_refuted"
   ],
   "note": "False for the HTTP request: its method is printed after the caption of its address, and the address on a line without caption (c95_refuted; c95_url tells exactly what is shown). All the other settings are shown (c95_shown_partial) when no text has a line feed and the address does not look like a line of the listing."
  },
  {
   "property": "C96",
   "status": "proved",
   "theorems": [
    "Wifinfo.c96_bytes",
    "Wifinfo.c96_settings",
    "Wifinfo.c96_tool"
   ],
   "note": "Bytes and addresses for every content; the settings in use at any time after a start, whether or not the flash can be written (`esp reset` clears the copy and restarts); the external tool reads them unless the flash had, at the start, texts without terminator."
  },
  {
   "property": "C97",
   "status": "partial",
   "theorems": [
    "Wifinfo.c97_exact",
    "Wifinfo.c97_list",
    "Wifinfo.c97_image_partial",
    "Wifinfo.c97_refuted",
    "Wifinfo.c97_version_partial"
   ],
   "note": "False for a name with a line feed (c97_refuted); holds for any names without (c97_list), with the file system under the conditions of C48 (c97_image_partial) and exactly if the device can read all the names (c97_exact). The version is shown up to 63 bytes (c97_version_partial), under the conditions of C44."
  },
  {
   "property": "C98",
   "status": "partial",
   "theorems": [
    "Wifinfo.c98_files_partial",
    "Wifinfo.c98_program",
    "Wifinfo.c98_settings",
    "Wifinfo.c98_refuted",
    "Wifinfo.c98_exact"
   ],
   "note": "From the folder through the upload to the answers of the web server, for every previous content (c98_files_partial), under the conditions of C44 on names and sizes; false without them (c98_refuted); it holds exactly if the device can read all the names of the folder in its partition (c98_exact). A program keeps the files (c98_program), both keep the settings (c98_settings). The updater of the SDK is an assumption, stated in Spec.Updated."
  },
  {
   "property": "C99",
   "status": "proved",
   "theorems": [
    "Wifinfo.c99_off",
    "Wifinfo.c99_frame",
    "Wifinfo.c99_dark",
    "Wifinfo.c99_blinks",
    "Wifinfo.c99_step"
   ],
   "note": "For every history: off outside of uploads (c99_off), one flash per valid frame if and only if the option is set (c99_frame), nothing else lights it (c99_dark), it changes at each tick during an upload (c99_blinks). Builds with ENABLE_LED; periods of the tickers and ArduinoOTA are left out."
  },
  {
   "property": "C100",
   "status": "partial",
   "theorems": [
    "Wifinfo.c100_restart_partial",
    "Wifinfo.c100_only",
    "Wifinfo.c100_refuted_access",
    "Wifinfo.c100_refuted_again"
   ],
   "note": "False as stated: a client without full access is told OK and there is no restart (c100_refuted_access); another upload in the half-second before the restart cancels it (c100_refuted_again). Proved: it restarts whatever else happens (c100_restart_partial), and never otherwise (c100_only)."
  },
  {
   "property": "C101",
   "status": "partial",
   "theorems": [
    "Wifinfo.c101_stream",
    "Wifinfo.c101_alive_partial",
    "Wifinfo.c101_pace",
    "Wifinfo.c101_quiet",
    "Wifinfo.c101_single_partial",
    "Wifinfo.c101_refuted_button",
    "Wifinfo.c101_refuted_link",
    "Wifinfo.c101_refuted_error"
   ],
   "note": "False as stated: each press of the button adds a refresh loop (c101_refuted_button), so does the address #tab_tinfo (c101_refuted_link), and a failed request ends the refreshing (c101_refuted_error). Proved: at most one stream, exactly on the tab of the gauges (c101_stream); no request before its time (c101_pace); alive as long as no request fails (c101_alive_partial); quiet on the other tabs (c101_quiet); one loop without buttons (c101_single_partial)."
  },
  {
   "property": "C102",
   "status": "partial",
   "theorems": [
    "Wifinfo.c102_chosen_partial",
    "Wifinfo.c102_refuted_quote",
    "Wifinfo.c102_refuted_latin"
   ],
   "note": "False as stated: one network with a quotation mark in its name empties the list (c102_refuted_quote), one whose name is not UTF-8 is stored under another name (c102_refuted_latin). Holds for all the others (c102_chosen_partial)."
  },
  {
   "property": "C103",
   "status": "partial",
   "theorems": [
    "Wifinfo.c103_exact",
    "Wifinfo.c103_open_partial",
    "Wifinfo.c103_factory",
    "Wifinfo.c103_refuted_key",
    "Wifinfo.c103_refuted_name"
   ],
   "note": "False as stated: the page and the device accept keys of 1 to 7 bytes and an empty name, which the SDK refuses; the access point is then the one it had before, open if it was (c103_refuted_key, c103_refuted_name). Holds for all other names and keys up to 63 bytes (c103_open_partial, c103_exact), and for a new device (c103_factory). The rule of the SDK is an assumption, stated in Spec.Sdk."
  },
  {
   "property": "C104",
   "status": "partial",
   "theorems": [
    "Wifinfo.c104_readable_partial",
    "Wifinfo.c104_file_partial",
    "Wifinfo.c104_only",
    "Wifinfo.c104_prefix"
   ],
   "note": "As C87: holds for sources dated after what was prepared (c86_refuted_date), names of at most 63 bytes, images with 63 bytes after the names (c80_refuted; any names that the device can read: c104_readable_partial), and not for the files that the builder leaves out, .DS_Store and .git (c104_file_partial). Nothing else is public for any request with at most 255 arguments (c104_only); the handlers compare the beginning of the address, so that a file jsecret.txt would be served (c104_prefix). The static handlers of the ESP8266 core are modelled (assumption)."
  },
  {
   "property": "C105",
   "status": "partial",
   "theorems": [
    "Wifinfo.c105_saved_partial",
    "Wifinfo.c105_refuted_flash",
    "Wifinfo.c105_upload",
    "Wifinfo.c105_update_partial",
    "Wifinfo.c105_refuted_update",
    "Wifinfo.c105_refuted_access",
    "Wifinfo.c105_restart_partial",
    "Wifinfo.c105_refuted_restart",
    "Wifinfo.c105_refused",
    "Wifinfo.c105_comes_back"
   ],
   "note": "False as stated in four cases: a failed write of the flash (c105_refuted_flash), a file that the updater refuses, answered 200 FAIL (c105_refuted_update), a good file sent without full access (c105_refuted_access), a restart whose credentials are refused (c105_refuted_restart): the page then tells success, or waits and comes back, and nothing happened. Otherwise the notices are right: saving (c105_saved_partial), updating (c105_upload, c105_update_partial), restarting (c105_restart_partial). The success codes of jQuery are an assumption."
  },
  {
   "property": "C106",
   "status": "partial",
   "theorems": [
    "Wifinfo.c106_there",
    "Wifinfo.c106_press_partial",
    "Wifinfo.c106_raz",
    "Wifinfo.c106_enter",
    "Wifinfo.c106_confirmed",
    "Wifinfo.c106_session",
    "Wifinfo.c106_refuted_cancel",
    "Wifinfo.c106_cancel_partial",
    "Wifinfo.c106_restart",
    "Wifinfo.c106_reset"
   ],
   "note": "False as stated: the button RAZ Usine has no type, it submits the form; pressing it and then Annuler saves whatever was typed (c106_refuted_cancel), harmless only on an untouched or invalid form (c106_cancel_partial). All other buttons send what they announce (c106_press_partial, c106_there, c106_session), Enter saves (c106_enter), the reset is always confirmed and never possible on the restricted page (c106_confirmed, c106_reset), the restart keeps the settings (c106_restart). The rules of HTML for submission are an assumption."
  },
  {
   "property": "C107",
   "status": "partial",
   "theorems": [
    "Wifinfo.c107_session_partial",
    "Wifinfo.c107_refuted_mixed",
    "Wifinfo.c107_refuted_correction"
   ],
   "note": "False as stated: a frame that is sent while a command is typed ends the command after its first byte and is lost, the rest of the command goes to the decoder (c107_refuted_mixed), and a corrected character stays in the command (c107_refuted_correction). Proved for every session without these two: commands and frames arrive exactly as meant (c107_session_partial)."
  },
  {
   "property": "C108",
   "status": "partial",
   "theorems": [
    "Wifinfo.c108_scan_partial",
    "Wifinfo.c108_scan_none",
    "Wifinfo.c108_refuted_markup",
    "Wifinfo.c108_refuted_reference",
    "Wifinfo.c108_system_partial",
    "Wifinfo.c108_meter_partial"
   ],
   "note": "False as stated: the tables insert names as HTML, a network in the neighbourhood called <script ...> puts this tag into the page (c108_refuted_markup; 24 bytes are enough), and the name R&amp;D is not shown as it is (c108_refuted_reference). Proved for texts without markup that need no JSON escape: networks in any order (c108_scan_partial), system (c108_system_partial), meter (c108_meter_partial)."
  },
  {
   "property": "C109",
   "status": "partial",
   "theorems": [
    "Wifinfo.c109_jeedom_partial",
    "Wifinfo.c109_emoncms_partial",
    "Wifinfo.c109_http_partial",
    "Wifinfo.c109_refuted_date",
    "Wifinfo.c109_refuted_value",
    "Wifinfo.c109_refuted_space",
    "Wifinfo.c109_refuted_header",
    "Wifinfo.c109_refuted_tls"
   ],
   "note": "False as stated: nothing is encoded. The + of the time zone of $date reaches the server as a space (c109_refuted_date), a & in a value of the meter makes another argument (c109_refuted_value), a space in a key makes the request unreadable (c109_refuted_space), an end of line in a path adds headers (c109_refuted_header), and with the port 443 the request goes in clear (c109_refuted_tls). Proved for settings and frames without blanks, ends of line, #, %, & and + (and no comma, brace or, in a label, colon for emoncms), with any labels but the date, for every frame, service, notification and library headers: one request with exactly the path, the arguments and the body (c109_jeedom_partial, c109_emoncms_partial, c109_http_partial)."
  },
  {
   "property": "C110",
   "status": "partial",
   "theorems": [
    "Wifinfo.c110_answered_partial",
    "Wifinfo.c110_given_partial",
    "Wifinfo.c110_refuted_saved",
    "Wifinfo.c110_refuted_stream"
   ],
   "note": "False as stated: on a device without user name a client behind a proxy gets the full page, and once they have set a user name its buttons are refused to them even with the right password (c110_refuted_saved); a third page that shows the gauges gets no event stream (c110_refuted_stream). Proved for every session of both pages while the client has the rights the page was made for and there is room for a stream (c110_answered_partial), in particular for the page given at / as long as user name and password stay (c110_given_partial)."
  },
  {
   "property": "C111",
   "status": "proved",
   "theorems": [
    "Wifinfo.c111_instant",
    "Wifinfo.c111_frame",
    "Wifinfo.c111_query"
   ],
   "note": "The text for every second up to 9999 is read back as this second and tells the legal difference (c111_instant, against a calendar by years and months and the directive 2000/84/EC; the model follows the code of the C library, assumed as in DESIGN.md). c111_frame: the same text in all places for a frame of a meter. c111_query: what a server reads for $date in a query is never a date, since the + is not encoded (see C109)."
  },
  {
   "property": "C112",
   "status": "proved",
   "theorems": [
    "Wifinfo.c112_size",
    "Wifinfo.c112_page"
   ],
   "note": "c112_size for every size of 32 bits and every rounding function with the properties of Spec.Rounding (assumed of double precision); c112_page: the row of the page shows it, and the percentage, for file systems up to 42949672 bytes (above, the product of the code overflows). dtostrf of the Arduino core is modelled after its source, which is an assumption."
  },
  {
   "property": "C113",
   "status": "proved",
   "theorems": [
    "Wifinfo.c113_command",
    "Wifinfo.c113_heard"
   ],
   "note": "c113_command and c113_heard, for the C library as modelled in Model/Date.lean and Model/Time.lean (gmtime_r, localtime_r, asctime_r of newlib; an assumption)."
  },
  {
   "property": "C114",
   "status": "partial",
   "theorems": [
    "Wifinfo.c114_password_partial",
    "Wifinfo.c114_port",
    "Wifinfo.c114_accepted",
    "Wifinfo.c114_refuted_restart",
    "Wifinfo.c114_refuted_saved",
    "Wifinfo.c114_replay"
   ],
   "note": "Proved: the memory is written only after a challenge answered with the password of the start (c114_password_partial), the password is accepted (c114_accepted), a recorded answer is no use (c114_replay), the port (c114_port). False in the code: a wrong answer restarts the device (c114_refuted_restart), a saved password is not the one before the next start (c114_refuted_saved). ArduinoOTA is modelled after the source of the core (assumption), MD5 is a parameter."
  },
  {
   "property": "C115",
   "status": "partial",
   "theorems": [
    "Wifinfo.c115_restore_partial",
    "Wifinfo.c115_written",
    "Wifinfo.c115_address",
    "Wifinfo.c115_address_exact",
    "Wifinfo.c115_untouched",
    "Wifinfo.c115_saved_partial",
    "Wifinfo.c115_conv",
    "Wifinfo.c115_conv_short",
    "Wifinfo.c115_refuted_stale",
    "Wifinfo.c115_refuted_lost",
    "Wifinfo.c115_case",
    "Wifinfo.c115_refuted_case",
    "Wifinfo.c115_refuted_name",
    "Wifinfo.c115_refuted_raw"
   ],
   "note": "Proved: saved by read and put back by write, the settings are the same, for the names with an extension of the tool when esptool.py works and the texts are in UTF-8 (c115_restore_partial); what the file is (c115_saved_partial); a board starts with what a JSON file written by hand tells (c115_written); the address (c115_address); the case of an extension does not matter to write (c115_case), but it does to read (c115_refuted_case); what is not touched (c115_untouched); conv (c115_conv, c115_conv_short). False in the code: when esptool.py fails, the tool says that the raw file is saved (c115_refuted_stale) and empties the previous JSON or YAML file (c115_refuted_lost); other extensions are saved but cannot be put back (c115_refuted_name); raw files with texts not in UTF-8 cannot be put back (c115_refuted_raw). PyYAML is a parameter."
  },
  {
   "property": "C116",
   "status": "partial",
   "theorems": [
    "Wifinfo.c116_network_partial",
    "Wifinfo.c116_count_exact",
    "Wifinfo.c116_options_partial",
    "Wifinfo.c116_refuted_network",
    "Wifinfo.c116_refuted_count",
    "Wifinfo.c116_refuted_options"
   ],
   "note": "Proved: the network, as long as nobody saves another one (c116_network_partial); exactly what is counted (c116_count_exact); the options of a build without LED (c116_options_partial). False in the code: a network that was saved is shown before it is joined (c116_refuted_network), returns of the network are not counted (c116_refuted_count), the LED is never listed (c116_refuted_options). The radio is that of the SDK (assumption)."
  },
  {
   "property": "C117",
   "status": "partial",
   "theorems": [
    "Wifinfo.c117_sent",
    "Wifinfo.c117_full",
    "Wifinfo.c117_forward",
    "Wifinfo.c117_button",
    "Wifinfo.c117_seen",
    "Wifinfo.c117_hidden",
    "Wifinfo.c117_colour_exact",
    "Wifinfo.c117_colour_partial",
    "Wifinfo.c117_refuted_colour",
    "Wifinfo.c117_refuted_start"
   ],
   "note": "Proved: percentage and amounts (c117_sent), full at the end (c117_full), not backwards (c117_forward), the button (c117_button), seen and named until another file is chosen (c117_seen), not before an upload (c117_hidden), the colour if nothing failed before (c117_colour_partial, c117_colour_exact). False in the code: red for ever after a failure (c117_refuted_colour); a second upload begins with the figures of the first one (c117_refuted_start). toFixed is that of ECMAScript, the rounding of doubles any faithful one (assumptions)."
  },
  {
   "property": "C118",
   "status": "partial",
   "theorems": [
    "Wifinfo.c118_size",
    "Wifinfo.c118_installed_partial",
    "Wifinfo.c118_refuted_default",
    "Wifinfo.c118_exact"
   ],
   "note": "Proved for the commands of the README (c118_installed_partial; partial as C44: names of at most 63 bytes, 63 bytes of contents or free space; exactly when: c118_exact) and for the size argument (c118_size). False for the default size of the builder: the image of 1 MB written on a board of 4 MB destroys the settings (c118_refuted_default). The places of the partitions are those of the linker scripts of the core (assumption)."
  },
  {
   "property": "C119",
   "status": "partial",
   "theorems": [
    "Wifinfo.c119_tic",
    "Wifinfo.c119_tic_none",
    "Wifinfo.c119_wifi",
    "Wifinfo.c119_ap",
    "Wifinfo.c119_gpio_read_partial",
    "Wifinfo.c119_gpio_write_partial",
    "Wifinfo.c119_refuted_pin",
    "Wifinfo.c119_refuted_word",
    "Wifinfo.c119_refuted_missing",
    "Wifinfo.c119_other",
    "Wifinfo.c119_none",
    "Wifinfo.c119_timers_partial"
   ],
   "note": "Proved: tic (c119_tic, c119_tic_none), set wifi and set ap with both words (c119_wifi, c119_ap), set gpio for numbers that fit a byte (c119_gpio_read_partial, c119_gpio_write_partial), set timers within the bound of C65 (c119_timers_partial), other words (c119_other, c119_none). False: set wifi alone erases the network (c119_refuted_missing), set gpio 258 1 writes to the pin 2 (c119_refuted_pin), a word is the pin 0 (c119_refuted_word). How SimpleCLI cuts a line into words is not modelled."
  },
  {
   "property": "C120",
   "status": "partial",
   "theorems": [
    "Wifinfo.c120_archive",
    "Wifinfo.c120_archive_one",
    "Wifinfo.c120_copy_partial",
    "Wifinfo.c120_copy_one_partial",
    "Wifinfo.c120_refuted_stale",
    "Wifinfo.c120_refuted_twice",
    "Wifinfo.c120_refuted_below",
    "Wifinfo.c120_name_partial",
    "Wifinfo.c120_refuted_name"
   ],
   "note": "Proved for the archive (c120_archive, c120_archive_one); for the copy, all files are there and the others are as before (c120_copy_partial, c120_copy_one_partial). False: the copy leaves the files of an earlier copy (c120_refuted_stale, c120_refuted_twice), sources in sub-folders are left out (c120_refuted_below, there are none today), a name with a dot gets no .zip (c120_name_partial, c120_refuted_name)."
  },
  {
   "property": "C121",
   "status": "partial",
   "theorems": [
    "Wifinfo.c121_only",
    "Wifinfo.c121_index",
    "Wifinfo.c121_signed",
    "Wifinfo.c121_name",
    "Wifinfo.c121_chosen",
    "Wifinfo.c121_listed_partial",
    "Wifinfo.c121_refuted_listed",
    "Wifinfo.c121_screen_exact",
    "Wifinfo.c121_screen_partial",
    "Wifinfo.c121_refuted_screen"
   ],
   "note": "Proved for the choice in the list (c121_only, c121_index, c121_name, c121_chosen, c121_signed) and for ASCII output (c121_screen_exact, c121_screen_partial). False: on macOS the ports /dev/cu.* other than /dev/cu.usb* are not listed (c121_listed_partial, c121_refuted_listed); bytes that are not ASCII are shown as replacement characters (c121_refuted_screen)."
  },
  {
   "property": "C122",
   "status": "partial",
   "theorems": [
    "Wifinfo.c122_folder_partial",
    "Wifinfo.c122_unchanged",
    "Wifinfo.c122_exact"
   ],
   "note": "Proved for every sequence of calls on every image under the conditions of C44 on names and sizes (c122_folder_partial); false without them (c44_refuted_long, c44_refuted_tight); exactly when: c122_exact. For any content of the partition, no call changes it (c122_unchanged)."
  },
  {
   "property": "C123",
   "status": "proved",
   "theorems": [
    "Wifinfo.c123_service",
    "Wifinfo.c123_chosen",
    "Wifinfo.c123_list_limit"
   ],
   "note": "c123_service, from the first start to the attempt to join, with any events in between that do not change the settings. Choosing in the list instead of typing is the same post when the list can be shown (c123_chosen); with a quotation mark in a name of the neighbourhood it cannot be (c123_list_limit, C102). The flash can be written."
  },
  {
   "property": "C124",
   "status": "partial",
   "theorems": [
    "Wifinfo.c124_meter",
    "Wifinfo.c124_published",
    "Wifinfo.c124_energy_partial",
    "Wifinfo.c124_refuted_power",
    "Wifinfo.c124_refuted_first"
   ],
   "note": "Proved for every sequence of frames and keys: sizes, indexes that never go down (c124_meter), published by the device (c124_published), energy counted to within a millionth of Wh (c124_energy_partial). False: the power shown is another draw than the one counted (c124_refuted_power), the first frame counts the time since the start of the machine (c124_refuted_first). Assumed of the floating-point numbers: Binary64; of the clock, the sine and the draws: Draw."
  },
  {
   "property": "C125",
   "status": "partial",
   "theorems": [
    "Wifinfo.c125_stays_partial",
    "Wifinfo.c125_refuted_stream",
    "Wifinfo.c125_refuted_stream_case",
    "Wifinfo.c125_refuted_flash"
   ],
   "note": "c125_stays_partial: an invariant of every later history in which the flash works. False as stated: an event stream opened before is not closed and goes on receiving (c125_refuted_stream, c125_refuted_stream_case), and after a write that failed the answer is OK but the password is lost at the restart (c125_refuted_flash). What a stranger can upload is the subject of C39 (c39_refuted)."
  },
  {
   "property": "C126",
   "status": "partial",
   "theorems": [
    "Wifinfo.c126_edits_partial",
    "Wifinfo.c126_edits_restricted_partial",
    "Wifinfo.c126_refuted_stale"
   ],
   "note": "c126_edits_partial, c126_edits_restricted_partial: what was changed is as entered, everything else is as the page was opened with, whatever the device holds at the time of the save (settings that the page can show and values within the limits, C75, C76). False as stated: the form posts all the settings, so a page opened before somebody else saved takes their change back without a word (c126_refuted_stale)."
  },
  {
   "property": "C127",
   "status": "partial",
   "theorems": [
    "Wifinfo.c127_memory_partial",
    "Wifinfo.c127_meter_partial",
    "Wifinfo.c127_refuted_url"
   ],
   "note": "c127_memory_partial: all the texts of all the events in every run, with the exception of the address of an HTTP notification, which is bounded by 152 times the longest value of the frame; c127_meter_partial: no exception when the values have at most 25 bytes. The texts given by the SDK have the sizes of Spec.SmallSdk and Spec.SmallAp, the clock gives times of 32 bits. False as stated: a path that repeats a label and a frame with a long value give an address of more than 25000 bytes (c127_refuted_url)."
  },
  {
   "property": "C128",
   "status": "partial",
   "theorems": [
    "Wifinfo.c128_place",
    "Wifinfo.c128_seen",
    "Wifinfo.c128_home",
    "Wifinfo.c128_answer_partial",
    "Wifinfo.c128_session_partial",
    "Wifinfo.c128_full",
    "Wifinfo.c128_refuted_wait",
    "Wifinfo.c128_refuted_version",
    "Wifinfo.c128_refuted_update"
   ],
   "note": "c128_place: for every address, exactly those that begin as one of twelve pages go to the device, unchanged; the rest is the folder. c128_home: the page is that of the sources. c128_answer_partial, c128_session_partial: every use of the page without an update leaves the device as it would be without the proxy, and gets the same answers. c128_full: the rights are those of a direct client. False as stated: the wait after a restart never ends (c128_refuted_wait), no version (c128_refuted_version), no update (c128_refuted_update)."
  },
  {
   "property": "C129",
   "status": "partial",
   "theorems": [
    "Wifinfo.c129_meter",
    "Wifinfo.c129_gauges",
    "Wifinfo.c129_table",
    "Wifinfo.c129_system",
    "Wifinfo.c129_scan",
    "Wifinfo.c129_config",
    "Wifinfo.c129_asked_partial",
    "Wifinfo.c129_refuted_restart",
    "Wifinfo.c129_refuted_save",
    "Wifinfo.c129_uptime_partial",
    "Wifinfo.c129_refuted_uptime"
   ],
   "note": "c129_meter: the meter after any requests and events is as after its readings and keys alone. c129_gauges: after any interleaving, each stream has given one message per event and the gauges show the meter. c129_table, c129_system, c129_scan, c129_config: what the tables and the form show. c129_asked_partial: each request of any visit succeeds exactly unless it is one of three buttons. c129_uptime_partial: exactly when the time since the start is written as by a device. False as stated: the restart is refused and the page believes in it (c129_refuted_restart), saved settings are forgotten (c129_refuted_save), the uptime is not padded (c129_refuted_uptime)."
  },
  {
   "property": "C130",
   "status": "partial",
   "theorems": [
    "Wifinfo.c130_exact",
    "Wifinfo.c130_period_partial",
    "Wifinfo.c130_survives_partial",
    "Wifinfo.c130_closed",
    "Wifinfo.c130_recovers",
    "Wifinfo.c130_reply",
    "Wifinfo.c130_refuted_refused",
    "Wifinfo.c130_refuted_password",
    "Wifinfo.c130_refuted_closed",
    "Wifinfo.c130_refuted_factory"
   ],
   "note": "c130_exact: exactly which events a program gets on a network without a fault, for all times. c130_period_partial: all of them if the period of the stream and the spacing of the frames together are not more than its time-out. c130_survives_partial: whatever is lost, closed or unreachable, a program that is never refused goes on. c130_recovers: after the last trouble only events of the first 20 s (sse.py) or 41 s (influx.py) can be missed. c130_reply: whom the device accepts and refuses. False as stated: with the factory period sse.py loses one event of three for ever (c130_refuted_factory); a refusal (two clients already, a password) ends both programs (c130_refuted_refused, c130_refuted_closed, c130_refuted_password). The library sseclient is an assumption, stated in Model/Follow.lean."
  },
  {
   "property": "C131",
   "status": "partial",
   "theorems": [
    "Wifinfo.c131_day",
    "Wifinfo.c131_settles",
    "Wifinfo.c131_reload",
    "Wifinfo.c131_refuted_stale",
    "Wifinfo.c131_refuted_mixture",
    "Wifinfo.c131_refuted_version"
   ],
   "note": "c131_day: whatever happens, all that is shown was answered by the device at that address less than a day before, and at any address that is not one of a file it is the answer of now. c131_settles: a day after the last change of an answer every browser shows it. c131_reload: from a reload on as well. False as stated for the files, which are sent with max-age=86400: the old page, or a page that now needs a password, is shown for a day (c131_refuted_stale), a new page with the script of the old one (c131_refuted_mixture), the old version (c131_refuted_version). The cache of the browser is an assumption (RFC 9111), stated in Model/Cached.lean."
  },
  {
   "property": "C132",
   "status": "partial",
   "theorems": [
    "Wifinfo.c132_exact",
    "Wifinfo.c132_survives_partial",
    "Wifinfo.c132_tab",
    "Wifinfo.c132_reply",
    "Wifinfo.c132_refuted_cut",
    "Wifinfo.c132_refuted_refused",
    "Wifinfo.c132_refuted_again"
   ],
   "note": "c132_exact: after any history a message is shown if and only if the page has a connection that the device made before (for the last click on the tab, or after the last time the device closed one) and that nothing has happened to since. c132_survives_partial: without silent losses and refusals, one reconnection time after the device is back for good every message is shown, however long it was away. c132_tab: another tab and back is always enough. c132_reply: what the device answers. False as stated: after a connection lost without a word the gauges never move again (c132_refuted_cut), nor after one refusal, when the tab is shown (c132_refuted_refused) or at a reconnection (c132_refuted_again). The behaviour of EventSource is an assumption (WHATWG HTML), stated in Model/Source.lean."
  },
  {
   "property": "C133",
   "status": "partial",
   "theorems": [
    "Wifinfo.c133_text",
    "Wifinfo.c133_commit",
    "Wifinfo.c133_page_partial",
    "Wifinfo.c133_console_partial",
    "Wifinfo.c133_firmware_partial",
    "Wifinfo.c133_variable",
    "Wifinfo.c133_refuted_alone",
    "Wifinfo.c133_refuted_archive",
    "Wifinfo.c133_refuted_console"
   ],
   "note": "c133_text: for every name the version is the name, the number of commits and the commit. c133_commit: a text tells one commit at most. c133_page_partial: from git to the answer at /version, for every folder that fits. c133_variable: without git, the variable of the environment. c133_console_partial: the console prints the whole text if it is of at most 63 bytes. c133_firmware_partial: the table of the system, for names that JSON need not escape. False as stated: a commit to which no name leads stops the build with an exception (c133_refuted_alone), sources without git all have the version develop (c133_refuted_archive), the console cuts the commit of a long name (c133_refuted_console). What git prints is an assumption, stated in Model/Version.lean; how PlatformIO passes the text to the compiler is not modelled."
  },
  {
   "property": "C134",
   "status": "partial",
   "theorems": [
    "Wifinfo.c134_rows_partial",
    "Wifinfo.c134_shown",
    "Wifinfo.c134_order_partial",
    "Wifinfo.c134_marks_partial",
    "Wifinfo.c134_refuted_order",
    "Wifinfo.c134_refuted_markup",
    "Wifinfo.c134_refuted_arrow",
    "Wifinfo.c134_refuted_mixed"
   ],
   "note": "For all sequences of refreshes, searches and clicks. c134_rows_partial: the rows are exactly those that contain the text, if the text has no space and is not a part of the marks that the page adds. c134_shown: for every text no row that contains it is hidden. c134_order_partial: after a click or a refresh the rows are in the order of the column clicked last, descending after an odd number of clicks (the first click is descending). c134_marks_partial: which rows keep the arrow of C82. False as stated: a search after a click made during a search loses the order (c134_refuted_order), a text such as span finds rows that do not contain it (c134_refuted_markup), the arrows of rows found by their value are lost (c134_refuted_arrow), numbers and texts that the comparison turns round have no order (c134_refuted_mixed). toLowerCase, isNaN, parseFloat, localeCompare and Array.sort are parameters with stated assumptions, met by a sample browser."
  },
  {
   "property": "C135",
   "status": "partial",
   "theorems": [
    "Wifinfo.c135_current_partial",
    "Wifinfo.c135_positive_partial",
    "Wifinfo.c135_energy_partial",
    "Wifinfo.c135_cost",
    "Wifinfo.c135_range",
    "Wifinfo.c135_kept",
    "Wifinfo.c135_refuted_meters"
   ],
   "note": "For all series of measures, ranges and widths. c135_current_partial: the last measure of one meter, during one hour. c135_positive_partial, c135_energy_partial: the curve of an index that grows is not negative, and adds up to the difference of the mean indexes of its last and first interval, with an upper and a lower bound by what the meter has counted. c135_cost: the curve of the cost adds up to this energy at the prices of the collector. c135_range: highest, mean and lowest value. c135_kept: the points of the collector (C92) are kept with the numbers of the meter. False as stated: with several meters the queries mix them (c135_refuted_meters). The functions of InfluxQL are modelled from their documentation; Grafana is not modelled."
  },
  {
   "property": "C136",
   "status": "partial",
   "theorems": [
    "Wifinfo.c136_order",
    "Wifinfo.c136_complete",
    "Wifinfo.c136_after",
    "Wifinfo.c136_time",
    "Wifinfo.c136_slow",
    "Wifinfo.c136_two_seconds",
    "Wifinfo.c136_held_partial",
    "Wifinfo.c136_notified_partial",
    "Wifinfo.c136_published",
    "Wifinfo.c136_sent_partial",
    "Wifinfo.c136_recovers",
    "Wifinfo.c136_refuted"
   ],
   "note": "For all interleavings, durations and sizes of the buffer. c136_order: nothing is invented or put in another order. c136_complete: exactly when nothing is lost; c136_after: the same after a loss. c136_time, c136_slow, c136_two_seconds: how long the turns may last, in microseconds. c136_published: then the frames of the wire are published. c136_recovers: after any loss, the next whole frame is. c136_held_partial, c136_notified_partial, c136_sent_partial: if bytes are lost only between two frames, as during a notification, what is published is what the meter has sent. False as stated: held in the middle of a frame for 3.5 s the device publishes 2134 VA though the meter has sent 2100 and 1234 only (c136_refuted). The buffer of the core (the oldest byte is dropped) is assumed."
  },
  {
   "property": "C137",
   "status": "partial",
   "theorems": [
    "Wifinfo.c137_session",
    "Wifinfo.c137_exact",
    "Wifinfo.c137_there_partial",
    "Wifinfo.c137_refuted",
    "Wifinfo.c137_restart"
   ],
   "note": "For all histories. c137_exact, c137_session: the device is on its network if and only if the network is there and was there in the ten seconds that followed the last start. c137_there_partial: so it is whenever the network was there at each start. c137_restart: a start while the network is there always repairs it, the settings are not lost. False as stated: a device that starts without its network, as after a power cut when the router needs longer, disconnects and stays an access point until somebody starts it again (c137_refuted, for all continuations). The radio is that of the SDK (assumption of Model/Station.lean)."
  },
  {
   "property": "C138",
   "status": "partial",
   "theorems": [
    "Wifinfo.c138_overload_exact",
    "Wifinfo.c138_threshold_exact",
    "Wifinfo.c138_overload_partial",
    "Wifinfo.c138_threshold_partial",
    "Wifinfo.c138_refuted_lost",
    "Wifinfo.c138_refuted_restart",
    "Wifinfo.c138_refuted_power",
    "Wifinfo.c138_refuted_period"
   ],
   "note": "For all lives. c138_overload_exact, c138_threshold_exact: exactly what the service believes. c138_overload_partial, c138_threshold_partial: it is the state of the meter if no notification is lost and the device is not restarted while the state is on. False as stated: the result of a request is not looked at, a notification that does not arrive is not sent again (c138_refuted_lost); the state is forgotten by a restart, so the end of an overload, the return of the power or a change of period over a restart are never told (c138_refuted_restart, c138_refuted_power, c138_refuted_period). The triggers are on and the low threshold is under the high one."
  },
  {
   "property": "C139",
   "status": "partial",
   "theorems": [
    "Wifinfo.c139_safe_partial",
    "Wifinfo.c139_stream_partial",
    "Wifinfo.c139_restart_exact",
    "Wifinfo.c139_refuted_method",
    "Wifinfo.c139_refuted_image",
    "Wifinfo.c139_refuted_form"
   ],
   "note": "For all devices and requests. c139_safe_partial, c139_stream_partial: a GET elsewhere than at /config_form.json, /factory_reset and /reset changes nothing (at the event stream: only the list of the clients). c139_restart_exact: exactly which GET restarts or erases. False as stated: the three handlers are registered for every method (c139_refuted_method), so that an image in a page of another site resets the device or saves any settings, with the credentials which the browser of the owner remembers (c139_refuted_image, c139_refuted_form)."
  },
  {
   "property": "C140",
   "status": "partial",
   "theorems": [
    "Wifinfo.c140_request_partial",
    "Wifinfo.c140_session_partial",
    "Wifinfo.c140_refuted",
    "Wifinfo.c140_life_partial"
   ],
   "note": "Non-interference, for all pairs of devices that differ only by their keys and passwords. c140_request_partial: the answer to any request is the same, for credentials that are right with both passwords or with none. c140_session_partial: so are all the effects of any sequence of events between two starts, but for the answers to /config.json. False as stated: /config.json gives all the keys in clear to a client with full access, which without a user name is everybody (c140_refuted, for texts that JSON carries without escape). c140_life_partial: the same over any number of restarts, power cuts, console commands and failed writes, from the flash of the two devices on."
  },
  {
   "property": "C141",
   "status": "proved",
   "theorems": [
    "Wifinfo.c141_apart",
    "Wifinfo.c141_alive"
   ],
   "note": "Non-interference, for each service and all pairs of devices whose flash holds settings that differ only by those of the service, through restarts, power cuts, failed writes (that leave the same bytes in both), forms and console commands. c141_apart: all effects but the requests to this service and the answers to /config.json are the same and the settings still differ only by those of the service, for runs in which neither device faults. c141_alive: the settings of emoncms and jeedom cannot make one device fault where the other does not; those of the HTTP requests can (C24)."
  },
  {
   "property": "C142",
   "status": "proved",
   "theorems": [
    "Wifinfo.c142_info"
   ],
   "note": "c142_info, for all values, texts without line feed or carriage return and addresses in the mapped flash. The lines that a build with ENABLE_DEBUG adds are not modelled."
  },
  {
   "property": "C143",
   "status": "proved",
   "theorems": [
    "Wifinfo.c143_pages",
    "Wifinfo.c143_value",
    "Wifinfo.c143_power",
    "Wifinfo.c143_stream",
    "Wifinfo.c143_remembers"
   ],
   "note": "c143_pages (/json, /emoncms.json), c143_value (each label, the date, the seconds), c143_power (/tinfo.json and the power, from the last 48 frames of plausible histories), c143_stream (the events), for any two runs; c143_remembers: the power does need the frames before."
  }
 ]
}

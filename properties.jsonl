{"id": "C01", "title": "Serial decoder never touches memory outside its frame buffer", "statement": "Whatever bytes arrive on the serial line, feeding them one by one to the decoder never reads or writes outside the 350-byte frame buffer, never reads a byte that was not written before, and always terminates.", "quantifier": "every finite byte sequence, every initial (uninitialised) buffer content, every clock", "why_tests_cant": "The buffer is filled by an open-ended stream; only an invariant over all streams shows that no sequence reaches an out-of-range index.", "anchors": ["src/teleinfo.h: TeleinfoDecoder::put"]}
{"id": "C02", "title": "A frame is published exactly when a complete valid frame has just arrived", "statement": "After any byte history the decoder reports a frame if and only if the history ends with STX, one or more groups LF..CR each with a correct checksum and fitting the buffer, and ETX; the published content is then exactly the concatenation of these groups' normalised text (checksum and last separator dropped, trailing dots dropped, first separator and end marked by NUL).", "quantifier": "every byte history", "why_tests_cant": "It is an if-and-only-if over an infinite language of inputs; tests only sample some accepted and some rejected frames.", "anchors": ["src/teleinfo.h: TeleinfoDecoder::put", "src/teleinfo.h: TeleinfoDecoder::ready"]}
{"id": "C03", "title": "Any meter frame is decoded to exactly its labels and values", "statement": "For any list of (label, value) groups a meter may send (7-bit printable text, label without separator, separator SP or HT, total length within the buffer), the encoded frame received after any garbage is decoded to exactly these groups, in order, with trailing dots of each value removed.", "quantifier": "every list of groups, every separator choice, every preceding byte history", "why_tests_cant": "Round-trip over unbounded lists of groups and arbitrary previous decoder states.", "anchors": ["src/teleinfo.h: TeleinfoDecoder::put", "src/teleinfo.h: Teleinfo::get_value_next", "tools/simutic.py: group"]}
{"id": "C04", "title": "Corrupted groups are rejected", "statement": "If one byte of a group's label, separator or value is replaced on the line by another data byte that differs modulo 64, or the checksum byte itself is replaced, the frame containing it is not published.", "quantifier": "every valid frame, every position, every replacement byte", "why_tests_cant": "Quantifies over all frames, positions and substitutions.", "anchors": ["src/teleinfo.h: TeleinfoDecoder::put"]}
{"id": "C05", "title": "Published frames are always well-formed lists of label/value pairs", "statement": "Every published frame can be cut into label/value pairs, one pair per group that was received.", "quantifier": "every byte history after which a frame is published", "why_tests_cant": "Tests use frames produced by a well-behaved meter; the claim is about every accepted byte string.", "anchors": ["src/teleinfo.h: TeleinfoDecoder::put", "src/teleinfo.h: Teleinfo::get_value"]}
{"id": "C06", "title": "Decoding depends only on the bytes since the last start of frame", "statement": "Once a start-of-frame byte has been received, what the decoder publishes from then on does not depend on anything received before: every frame following noise, an aborted or a truncated frame is decoded as by a fresh decoder.", "quantifier": "every pair of previous histories, every continuation starting with STX", "why_tests_cant": "Relational property over all pairs of histories.", "anchors": ["src/teleinfo.h: TeleinfoDecoder::put"]}
{"id": "C07", "title": "Each frame is published once, on its end marker", "statement": "A frame is reported ready only immediately after an ETX byte and the very next byte, whatever it is, withdraws it; over any history the number of publications is the number of complete valid frames in the stream.", "quantifier": "every byte history", "why_tests_cant": "Counting property over unbounded histories.", "anchors": ["src/teleinfo.h: TeleinfoDecoder::put", "src/teleinfo.h: TeleinfoDecoder::ready", "src/tic.cpp: tic_decode"]}
{"id": "C08", "title": "Published frames never exceed the safe length", "statement": "Any published frame has a length between 1 and 346 bytes, ends with a NUL, and longer transmissions are dropped without being published.", "quantifier": "every byte history", "why_tests_cant": "Bound over all streams.", "anchors": ["src/teleinfo.h: TeleinfoDecoder::put"]}
{"id": "C09", "title": "Reading a value by label returns the first matching group, or the default", "statement": "On any published frame, looking a label up returns the value of the first group carrying that label and the caller's default when there is none; it never reads outside the frame and terminates.", "quantifier": "every published frame, every label, every default", "why_tests_cant": "All frames and labels.", "anchors": ["src/teleinfo.h: Teleinfo::get_value"]}
{"id": "C10", "title": "Iterating over a frame visits every group exactly once, in order", "statement": "On any published frame, calling the iterator until it returns false yields every label/value pair once, in order of reception, then stops; on an empty frame it yields nothing; it never reads outside the frame.", "quantifier": "every published frame", "why_tests_cant": "Termination and completeness for all frames.", "anchors": ["src/teleinfo.h: Teleinfo::get_value_next"]}
{"id": "C11", "title": "Leading zeros are removed without changing the number", "statement": "For any text made only of digits, integer normalisation keeps the numeric value, removes every superfluous leading zero and keeps at least one digit; for any other text it leaves it unchanged and reports it is not a number.", "quantifier": "every character string", "why_tests_cant": "All strings of all lengths.", "anchors": ["src/teleinfo.h: Teleinfo::get_integer"]}
{"id": "C12", "title": "Integer reading of a label is exact or falls back to the default", "statement": "Reading a label as an integer returns the decimal value of the group (modulo 2^32), and the default if the label is absent or its value contains a non-digit.", "quantifier": "every published frame, label and default", "why_tests_cant": "All frames and values including overflowing ones.", "anchors": ["src/teleinfo.h: Teleinfo::get_value_int"]}
{"id": "C13", "title": "The textual dump reproduces the whole frame within its buffer", "statement": "Dumping any published frame of label/value pairs into a buffer of 350 bytes writes inside the buffer and produces one 'LABEL value' line per group, in order; for any buffer of at least 2 bytes the dump stays inside the buffer.", "quantifier": "every published frame, every buffer size of at least 2", "why_tests_cant": "All frames and sizes.", "anchors": ["src/teleinfo.h: Teleinfo::get_frame_ascii", "src/tic.cpp: tic_dump"]}
{"id": "C14", "title": "The power estimate never divides by zero and always terminates", "statement": "Whatever the history of received frames and clock readings (including clock jumps and 32-bit wrap-around), computing the estimated power over the default period terminates and never divides by zero.", "quantifier": "every history of frames and timestamps", "why_tests_cant": "Arithmetic over all 32-bit wrap-around histories.", "anchors": ["src/teleinfo.h: Teleinfo::watt", "src/teleinfo.h: Teleinfo::copy_from"]}
{"id": "C15", "title": "The power estimate is the consumption slope over the last minute", "statement": "The estimate is floor(3600000 x dWh / dt_ms) between the most recent sample and the oldest one of the unbroken run of samples, among the last 48, that lies within the period; 0 when there are not two such samples.", "quantifier": "every history of frames", "why_tests_cant": "Needs refinement of a circular buffer for all histories.", "anchors": ["src/teleinfo.h: Teleinfo::watt", "src/teleinfo.h: Teleinfo::copy_from"]}
{"id": "C16", "title": "The sample ring always holds the most recent 48 samples", "statement": "After any history of frames the sample store contains exactly the last min(n,48) samples, in order.", "quantifier": "every history of frames", "why_tests_cant": "Unbounded histories.", "anchors": ["src/teleinfo.h: Teleinfo::copy_from"]}
{"id": "C17", "title": "Tariff-period notification exactly on change", "statement": "With tariff notifications on, over any sequence of frames a PTEC notification is sent for a frame exactly when its PTEC value differs from the PTEC value of the last frame that had one, and never for the first one.", "quantifier": "every sequence of frames", "why_tests_cant": "Unbounded histories.", "anchors": ["src/tic.cpp: http_notif_periode_en_cours"]}
{"id": "C18", "title": "Threshold notifications follow the hysteresis and alternate", "statement": "With threshold notifications on, over any sequence of frames HAUT and BAS notifications strictly alternate starting with HAUT; HAUT is only sent when PAPP is at or above the high threshold, BAS only when at or below the low one, and no crossing is missed.", "quantifier": "every sequence of frames, every thresholds", "why_tests_cant": "Unbounded histories.", "anchors": ["src/tic.cpp: http_notif_seuils"]}
{"id": "C19", "title": "A drop of PAPP to zero is reported as a return below the low threshold", "statement": "When PAPP falls to 0 VA after a high-threshold notification, the low-threshold notification is sent.", "quantifier": "every sequence of frames", "why_tests_cant": "The exceptional value 0 is a corner of the input space the hysteresis tests never use.", "anchors": ["src/tic.cpp: http_notif_seuils"]}
{"id": "C20", "title": "Overload notifications track the presence of ADPS exactly", "statement": "With ADPS notifications on, over any sequence of frames an ADPS notification is sent exactly at each frame that carries ADPS while the previous did not, and NORM at each frame that no longer carries it; both strictly alternate starting with ADPS.", "quantifier": "every sequence of frames", "why_tests_cant": "Unbounded histories.", "anchors": ["src/tic.cpp: http_notif_adps"]}
{"id": "C21", "title": "Nothing is sent to an unconfigured destination", "statement": "If no HTTP host is configured no HTTP notification is ever sent whatever the triggers and timers; same for Jeedom and emoncms; and a destination whose host, port or frequency is unset never receives periodic notifications after the timers are programmed.", "quantifier": "every configuration, frame and timer state", "why_tests_cant": "All configurations and histories.", "anchors": ["src/tic.cpp: tic_notifs", "src/tic.cpp: tic_make_timers", "src/tic.cpp: jeedom_notif", "src/tic.cpp: emoncms_notif"]}
{"id": "C22", "title": "Per-frame notifications are bounded and ordered", "statement": "Each received frame causes at most one PTEC, one threshold (HAUT or BAS), one overload (ADPS or NORM) and one MAJ request, in that order, each at most once, only if the corresponding trigger is enabled.", "quantifier": "every configuration, notification state and frame", "why_tests_cant": "All configurations and states.", "anchors": ["src/tic.cpp: tic_notifs"]}
{"id": "C23", "title": "URL templates expand as documented", "statement": "Every URL template made of literal text, $$, ~~, $NAME and ~NAME~ (names of 1 to 15 characters) expands to the concatenation of its literal parts and the values of the named labels (internal labels type, notif, date, timestamp, seconds, chipid in any letter case), other labels being replaced by their value without leading zeros, or by nothing if absent.", "quantifier": "every template (token list), frame and notification type", "why_tests_cant": "Unbounded templates; compositional substitution.", "anchors": ["src/tic.cpp: http_notif", "src/tic.cpp: http_add_value_ex", "README.md"]}
{"id": "C24", "title": "URL expansion never reads outside the configured URL", "statement": "Whatever URL text is stored in the configuration, expanding it never reads past the URL buffer and terminates.", "quantifier": "every URL buffer content reachable through the configuration form", "why_tests_cant": "Off-by-one at the full length of the field; exhaustive testing impossible.", "anchors": ["src/tic.cpp: http_notif", "src/config.h: HttpreqConfig"]}
{"id": "C25", "title": "The Jeedom request carries every group once, in order", "statement": "The Jeedom request URL is the configured path (or /), '?api=' and the key, then '&LABEL=value' for every group of the frame in order, ADCO being replaced by the configured identifier if there is one.", "quantifier": "every configuration and frame", "why_tests_cant": "All frames.", "anchors": ["src/tic.cpp: jeedom_notif"]}
{"id": "C26", "title": "The emoncms payload maps every group as documented", "statement": "The emoncms payload is '{', 'LABEL:code' for every group of the frame in order separated by commas, '}', where OPTARIF, HHPHC and PTEC are mapped to their numeric codes (0 if unknown) and digits-only values lose their leading zeros.", "quantifier": "every frame", "why_tests_cant": "All frames.", "anchors": ["src/tic.cpp: tic_emoncms_data", "src/tic.cpp: emoncms_notif"]}
{"id": "C27", "title": "The JSON dictionary of a frame is valid JSON and carries every group", "statement": "For every published frame the JSON dictionary (web and SSE) is a valid JSON object which a JSON parser reads back as the timestamp, the seconds, the optional notification type and every label with its value, digits-only values being numbers.", "quantifier": "every published frame", "why_tests_cant": "Output validity for all frame contents.", "anchors": ["src/tic.cpp: tic_get_json_dict", "src/jsonbuilder.h: JSONBuilder"]}
{"id": "C28", "title": "The JSON array of a frame is valid JSON and carries every group", "statement": "For every published frame the JSON array is valid JSON which a parser reads back as one {na,va} object for the timestamp, the power estimate, and every group in order; with no frame it is [].", "quantifier": "every published frame", "why_tests_cant": "Output validity for all frame contents.", "anchors": ["src/tic.cpp: tic_get_json_array", "src/jsonbuilder.h: JSONTableBuilder"]}
{"id": "C29", "title": "A saved configuration is read back identically", "statement": "For every configuration whose texts are terminated, saving then reading (or rebooting) succeeds and yields the same configuration.", "quantifier": "every configuration", "why_tests_cant": "2^8000 configurations.", "anchors": ["src/config.cpp: config_save", "src/config.cpp: config_read"]}
{"id": "C30", "title": "The stored configuration checksum detects corruption", "statement": "If a stored valid configuration image is altered in any single byte, or in any two adjacent bytes, or in any single bit, it is rejected at the next read.", "quantifier": "every valid image, position and alteration", "why_tests_cant": "All images, positions and alterations.", "anchors": ["src/config.cpp: crc16Update", "src/config.cpp: config_read"]}
{"id": "C31", "title": "Boot always ends with a valid configuration", "statement": "Whatever the content of the EEPROM at power-up (blank, torn write, garbage), after start-up the running configuration is either the stored one (valid checksum) or the factory defaults, the EEPROM holds a valid image, and a second boot yields the same configuration.", "quantifier": "every EEPROM content", "why_tests_cant": "Every crash point / content.", "anchors": ["src/config.cpp: config_setup", "src/config.cpp: config_reset", "src/config.cpp: config_read", "src/config.cpp: config_save"]}
{"id": "C32", "title": "Configuration texts are always terminated", "statement": "In every state reachable by any sequence of boots, form posts, factory resets and Wi-Fi set-ups, from any EEPROM content, every text field of the configuration is NUL-terminated within its field.", "quantifier": "every sequence of operations, every EEPROM content", "why_tests_cant": "Invariant over all histories.", "anchors": ["src/config.cpp: config_securize_cstrings", "src/config.cpp: config_handle_form", "src/strncpy_s.h: strncpy_s", "src/sys.cpp: sys_wifi_connect"]}
{"id": "C33", "title": "Form values are range-checked", "statement": "After any configuration form post, every numeric field is inside its documented range (ports 0..65535, SSE period 0..360, periods 0..86400, node 0..255, thresholds 0..20000): it is the posted number if in range, else the default; texts are the posted ones cut to the field length.", "quantifier": "every form content and previous configuration", "why_tests_cant": "All strings for all fields.", "anchors": ["src/config.cpp: config_handle_form", "src/config.cpp: validate_int"]}
{"id": "C34", "title": "A restricted user cannot change network or access settings", "statement": "A configuration post made through the reverse proxy (restricted access) leaves SSID, keys, host name, OTA settings, user name and password unchanged whatever it contains.", "quantifier": "every form content and configuration", "why_tests_cant": "All inputs.", "anchors": ["src/config.cpp: config_handle_form"]}
{"id": "C35", "title": "A restricted user learns nothing about network or access settings", "statement": "The configuration JSON given to a restricted user is the same for any two configurations which differ only in SSID, keys, host name, OTA settings, user name and password.", "quantifier": "every pair of configurations", "why_tests_cant": "Non-interference is a property of pairs of executions.", "anchors": ["src/config.cpp: config_get_json"]}
{"id": "C36", "title": "The configuration JSON is valid and complete", "statement": "For every configuration the configuration JSON is a valid JSON object which a parser reads back as every form field with its current value.", "quantifier": "every configuration", "why_tests_cant": "All contents.", "anchors": ["src/config.cpp: config_get_json", "src/jsonbuilder.h: JSONBuilder"]}
{"id": "C37", "title": "The configuration image has a fixed 1024-byte layout", "statement": "Every configuration serialises to exactly 1024 bytes with the checksum in the last two, and every field is recovered from its documented offset, as the external EEPROM tool assumes.", "quantifier": "every configuration", "why_tests_cant": "All contents.", "anchors": ["src/config.h: Config", "tools/eeprom.py: write_eeprom", "tools/eeprom.py: read_eeprom"]}
{"id": "C38", "title": "A form post without the save field changes nothing", "statement": "A configuration post that lacks the save field is answered 400 and leaves the running configuration and the EEPROM untouched.", "quantifier": "every form content, configuration and EEPROM", "why_tests_cant": "All inputs.", "anchors": ["src/config.cpp: config_handle_form"]}
{"id": "C39", "title": "Protected resources are refused without authentication", "statement": "When a user name is configured, an unauthenticated request causes no state change and receives no device data: only the heartbeat, the version, static files and error pages are available.", "quantifier": "every request, configuration and state", "why_tests_cant": "All request kinds and states.", "anchors": ["src/webserver.cpp: webserver_setup", "src/webserver.cpp: webserver_get_auth", "src/update.cpp: sys_update_register"]}
{"id": "C40", "title": "Restricted access cannot factory-reset or update the device", "statement": "A request forwarded by a reverse proxy to a password-protected device can never erase the configuration, flash a firmware or restart through the update page.", "quantifier": "every request with the forwarding header", "why_tests_cant": "All requests and states.", "anchors": ["src/webserver.cpp: webserver_access_full", "src/update.cpp: sys_update_register"]}
{"id": "C41", "title": "The error page is produced for every request", "statement": "For any request with any number of arguments the not-found handler terminates and sends exactly one response.", "quantifier": "every request, every number of arguments", "why_tests_cant": "Termination for unbounded argument counts.", "anchors": ["src/webserver.cpp: webserver_handle_notfound"]}
{"id": "C42", "title": "At most two event-stream clients at any time", "statement": "In any interleaving of connections, disconnections, loop iterations and frames there are never more than two event-stream clients; a third one gets a 503 answer and the existing ones are unaffected.", "quantifier": "every interleaving of events", "why_tests_cant": "All schedules.", "anchors": ["src/sse.h: SseClients::handle_sse_data", "src/sse.h: SseClients::handle_clients"]}
{"id": "C43", "title": "Every live event-stream client gets each event exactly once, in order", "statement": "When an event is broadcast every client of the list which is connected receives it exactly once, disconnected clients are removed and closed exactly once, and nobody else receives anything.", "quantifier": "every client list, connection state and interleaving", "why_tests_cant": "All schedules.", "anchors": ["src/sse.h: SseClients::handle_clients", "src/sse.h: SseClient::send_event"]}
{"id": "C44", "title": "Every file put in an image can be read back", "statement": "For every set of files that the image builder accepts, each file opened by its name has exactly the size, time stamp and content it was built with.", "quantifier": "every file set (names, contents, sizes)", "why_tests_cant": "All file sets, hash collisions included.", "anchors": ["mkerfs32.py: create", "src/ERFS.cpp: ERFSFileImpl::ERFSFileImpl", "src/ERFS.cpp: ERFSFileImpl::read"]}
{"id": "C45", "title": "Opening a name that is not in the image fails", "statement": "In an image built from any file set, opening a name that is not one of the files fails even if its hash collides with an existing file.", "quantifier": "every file set and name", "why_tests_cant": "All names, all collisions.", "anchors": ["src/ERFS.cpp: ERFSFileImpl::ERFSFileImpl", "src/ERFS.cpp: ERFSImpl::exists"]}
{"id": "C46", "title": "Reading a file in any chunk sizes returns its bytes in order", "statement": "Any sequence of read calls of any sizes, with any buffer alignment, returns consecutive slices of the file, never more than what remains, and 0 at end of file.", "quantifier": "every file, every sequence of chunk sizes and alignments", "why_tests_cant": "All sequences.", "anchors": ["src/ERFS.cpp: ERFSFileImpl::read"]}
{"id": "C47", "title": "Seeking keeps the position inside the file", "statement": "After any sequence of seeks and reads the position is between 0 and the file size; a seek succeeds exactly when its target is inside the file (end allowed only from the end) and a failed seek does not move.", "quantifier": "every sequence of operations", "why_tests_cant": "All sequences, 32-bit offsets.", "anchors": ["src/ERFS.cpp: ERFSFileImpl::seek"]}
{"id": "C48", "title": "Directory listing enumerates every file once", "statement": "Listing the root of a built image returns every file's name, size and time once, in image order, then ends; rewinding restarts.", "quantifier": "every file set", "why_tests_cant": "All file sets.", "anchors": ["src/ERFS.cpp: ERFSDirImpl::next"]}
{"id": "C49", "title": "The image builder never exceeds the announced size", "statement": "The image has exactly the requested size, the announced occupied size is the exact end of the last file, and the builder refuses exactly the file sets that do not fit.", "quantifier": "every file set and size", "why_tests_cant": "All file sets.", "anchors": ["mkerfs32.py: create"]}
{"id": "C50", "title": "Console input and meter data are separated", "statement": "On the serial console build, a stream without TAB, ESC and back-quote is passed unchanged to the decoder; after one of these, at most 128 bytes up to the end of line are taken for the command line and none of them reaches the decoder.", "quantifier": "every byte stream", "why_tests_cant": "All streams.", "anchors": ["src/cli.cpp: cli_loop_read"]}
{"id": "C51", "title": "Frame processing is suspended exactly during a firmware upload", "statement": "Meter bytes are ignored from a successful start of upload to its end, error or abort, and never ignored otherwise.", "quantifier": "every sequence of upload events", "why_tests_cant": "All event sequences.", "anchors": ["src/update.cpp: sys_update_register", "src/tic.cpp: tic_decode"]}
{"id": "C52", "title": "Wi-Fi credentials are recovered from the SDK without loss", "statement": "When no SSID is configured and the SDK knows one, the stored SSID and key are the SDK ones.", "quantifier": "every SDK SSID (up to 32 bytes) and key (up to 64 bytes)", "why_tests_cant": "All lengths.", "anchors": ["src/sys.cpp: sys_wifi_connect"]}
{"id": "C53", "title": "Wi-Fi connection attempt is bounded and falls back to the access point", "statement": "Before it decides, the connection attempt reads the status at most 52 times and waits at most 50 times; then the device is either in station mode and connected or has opened its access point named after the host name.", "quantifier": "every sequence of connection statuses", "why_tests_cant": "All status sequences.", "anchors": ["src/sys.cpp: sys_wifi_connect"]}
{"id": "C54", "title": "Uptime is displayed exactly", "statement": "The displayed days, hours, minutes and seconds are in range and add up to the elapsed time in whole seconds.", "quantifier": "every uptime below 2^31 seconds", "why_tests_cant": "All uptimes.", "anchors": ["src/sys.cpp: sys_uptime"]}
{"id": "C55", "title": "CPU load is a percentage", "statement": "The displayed CPU load is between 0 and 100.", "quantifier": "every history of loop counts", "why_tests_cant": "All counter histories.", "anchors": ["src/cpuload.cpp: cpuload_cpu"]}
{"id": "C56", "title": "A configuration change survives a reboot", "statement": "After any successful configuration form post, a reboot gives back exactly the posted configuration.", "quantifier": "every form content, every previous state", "why_tests_cant": "All inputs.", "anchors": ["src/config.cpp: config_handle_form", "src/config.cpp: config_setup"]}
{"id": "C57", "title": "From the wire to the subscriber", "statement": "For any meter frame received by a running device with a connected event-stream client and no rate limit, the client receives one event whose JSON data parses to the groups of that frame.", "quantifier": "every frame, every previous history", "why_tests_cant": "End-to-end composition over all states.", "anchors": ["src/tic.cpp: tic_decode", "src/tic.cpp: tic_notifs", "src/sse.h: SseClients::handle_clients"]}
{"id": "C58", "title": "Images made by the external EEPROM tool are accepted", "statement": "For every configuration file whose numbers fit their fields, the image written by the external EEPROM tool is accepted at boot and gives exactly the settings of the file.", "quantifier": "every configuration file", "why_tests_cant": "All texts and numbers of every length, including texts longer than their field.", "anchors": ["tools/eeprom.py: write_eeprom", "src/config.cpp: config_read"]}
{"id": "C59", "title": "A 200 answer to a configuration post means it is stored", "statement": "Whenever a configuration form post is answered 200, the flash holds a valid image of the new configuration.", "quantifier": "every state, form and flash write outcome", "why_tests_cant": "Needs every outcome of the flash write.", "anchors": ["src/config.cpp: config_handle_form", "src/config.cpp: config_save"]}
{"id": "C60", "title": "Nothing that happens makes the device fault", "statement": "After power-up from any flash content, no sequence of requests, uploads, meter bytes, connection losses, serial commands and restarts makes the firmware read or write outside an object, use an uninitialised byte, divide by zero or loop for ever.", "quantifier": "every flash content, every sequence of events of any length", "why_tests_cant": "All histories of the whole device; a fault needs a particular combination of stored settings, received frame and request.", "anchors": ["src/main.cpp: loop", "src/webserver.cpp: webserver_setup", "src/tic.cpp: tic_decode"]}
{"id": "C61", "title": "The system, Wi-Fi scan and file list pages are well-formed JSON", "statement": "The system page, the list of Wi-Fi networks and the list of files are JSON texts that parse to exactly the values of the device: every row, every network, every file, in order.", "quantifier": "every configuration, system state, list of networks and list of files", "why_tests_cant": "Lists of any length with any names.", "anchors": ["src/sys.cpp: sys_get_info_json", "src/sys.cpp: sys_wifi_scan_json", "src/filesystem.cpp: fs_get_json"]}
{"id": "C62", "title": "A restricted client learns nothing from the system, scan and file pages", "statement": "What a restricted client receives on the system page depends only on the public rows; the list of networks and the list of files are always empty for it.", "quantifier": "every pair of devices that agree on the public rows", "why_tests_cant": "Non-interference relates pairs of executions.", "anchors": ["src/sys.cpp: sys_get_info_json", "src/sys.cpp: sys_wifi_scan_json", "src/filesystem.cpp: fs_get_json"]}
{"id": "C63", "title": "Every request gets exactly one answer", "statement": "Every request that reaches a handler is answered once, neither zero times nor twice.", "quantifier": "every request, configuration and state", "why_tests_cant": "All paths of all handlers, including the upload.", "anchors": ["src/webserver.cpp: webserver_setup", "src/update.cpp: sys_update_register"]}
{"id": "C64", "title": "A restricted client cannot observe network and access settings", "statement": "Two devices that differ only by their network and access settings (and by the private part of their surroundings) give the same answers to any request of a restricted client, whatever it asks or posts, and still differ only by these settings afterwards.", "quantifier": "every pair of devices, every request of a restricted client", "why_tests_cant": "Non-interference relates pairs of executions over all requests.", "anchors": ["src/webserver.cpp: webserver_setup", "src/config.cpp: config_get_json", "src/config.cpp: config_handle_form"]}
{"id": "C65", "title": "The notification periods are those that were asked for", "statement": "After the configuration is loaded or posted, each notification service is sent every so many seconds as the configuration says, and never if it has no host, no port or no period.", "quantifier": "every configuration", "why_tests_cant": "All values of the periods, including those where the conversion to milliseconds could overflow.", "anchors": ["src/tic.cpp: tic_make_timers", "src/config.cpp: config_handle_form"]}
{"id": "C66", "title": "The sizes shown for the file system are true", "statement": "For every image made by the tool, the device reports the size of the partition as total and the end of the last file content as used, which is the size announced by the tool without the final padding.", "quantifier": "every set of files and partition size", "why_tests_cant": "All images.", "anchors": ["src/ERFS.cpp: ERFS::info", "mkerfs32.py"]}
{"id": "C67", "title": "Mounting any flash content is safe", "statement": "Whatever the partition holds, mounting it reads nothing outside, succeeds exactly when the signature and version are there, and otherwise the device behaves as with an empty file system.", "quantifier": "every partition content", "why_tests_cant": "All contents, including blank and torn ones.", "anchors": ["src/ERFS.cpp: ERFS::begin"]}
{"id": "C68", "title": "A corrupted partition cannot make the device read outside of it", "statement": "Whatever the partition holds, opening, reading, seeking, listing and the sizes never read outside the partition nor use memory that was not initialised.", "quantifier": "every partition content and every operation", "why_tests_cant": "All contents, including hostile ones.", "anchors": ["src/ERFS.cpp: ERFS::begin", "src/ERFS.cpp: ERFSDirImpl", "src/ERFS.cpp: ERFSFileImpl"]}
{"id": "C69", "title": "Extracting an image gives back the files", "statement": "For every set of files, extracting the image the tool has made gives back each file with its name and its content, and nothing else.", "quantifier": "every set of files", "why_tests_cant": "All sets of files and names.", "anchors": ["mkerfs32.py"]}
{"id": "C70", "title": "A factory reset gives the factory settings", "statement": "After /factory_reset by a client with full access, the device has the factory settings at once. After it, or after `esp reset` on the console, the device restarts with the factory settings, provided the flash could be written.", "quantifier": "every state of the device, every settings, every outcome of the writes at restart", "why_tests_cant": "All stored settings and write outcomes.", "anchors": ["src/sys.cpp: sys_handle_factory_reset", "src/cli.cpp: cli_setup", "src/config.cpp: config_reset"]}
{"id": "C71", "title": "A web request changes only what it is meant to change", "statement": "Among web requests, only one to /config_form.json with the save field (by somebody let in) or a factory reset (with full access) changes the stored settings; only the event stream pages open a stream; only /reset, /factory_reset and the request that ends a good upload restart the device; no page touches the meter data or writes the firmware (the upload callback itself is the subject of C39, C40 and C73).", "quantifier": "every request, state and surroundings", "why_tests_cant": "All URIs, methods, arguments and states.", "anchors": ["src/webserver.cpp: webserver_setup", "src/update.cpp: sys_update_register"]}
{"id": "C72", "title": "Each client gets the home page made for it", "statement": "A client with full access is served /index.html, a restricted client /index.restrict.html and never the full page; the compressed file has priority; without any file the client is redirected to the update page.", "quantifier": "every client, configuration and file system", "why_tests_cant": "All combinations of access and files.", "anchors": ["src/webserver.cpp: webserver_setup", "src/webserver.cpp: webserver_handle_read"]}
{"id": "C73", "title": "Only a complete upload is installed", "statement": "The updater receives exactly the uploaded bytes in order; it is told to accept only at the end of the file, never after an interruption; the device restarts only after an upload that the updater declared good.", "quantifier": "every sequence of upload pieces, interruptions, errors and other events", "why_tests_cant": "All interleavings and error outcomes.", "anchors": ["src/update.cpp: sys_update_register", "src/update.cpp: sys_update_finish"]}
{"id": "C74", "title": "A single value can be asked for", "statement": "A client with access who asks for /<label> gets the value that the last frame has for that label, without leading zeros, and the error page if there is none.", "quantifier": "every frame, label, client and configuration", "why_tests_cant": "All frames and labels.", "anchors": ["src/webserver.cpp: webserver_handle_notfound", "src/tic.cpp: tic_get_value"]}
{"id": "C75", "title": "Saving the configuration page untouched changes nothing", "statement": "A client who opens the configuration page and saves it without touching it leaves every setting of the device as it was.", "quantifier": "every reachable configuration, the full page and the page of restricted clients, every browser, every outcome of the flash write", "why_tests_cant": "Needs every configuration: the page, its filling from the JSON answer, what a browser posts for each kind of control, and the parsing of the form have to agree.", "anchors": ["data_src/index.html: frm_config", "data_src/js/wifinfo.js: autofill", "src/config.cpp: config_get_json", "src/config.cpp: config_handle_form"]}
{"id": "C76", "title": "What the configuration page accepts is stored as entered", "statement": "Whatever is entered in the configuration page within the limits of its controls is stored by the device as it was entered.", "quantifier": "every combination of values that the controls accept, every previous configuration", "why_tests_cant": "All texts up to the limits of thirty-two controls.", "anchors": ["data_src/index.html: frm_config", "src/config.cpp: config_handle_form", "src/config.cpp: validate_int", "src/config.h: Config"]}
{"id": "C77", "title": "The frames of the simulator are understood", "statement": "A frame sent by the meter simulator is taken by the device, with the labels of the simulated meter in order and exactly the simulated values.", "quantifier": "every state of the simulated meter with values of the sizes of a meter, every stream before the frame, every sequence of commands to the simulator", "why_tests_cant": "All values of the counters and all streams before the frame; the two programs are in different languages and share no code.", "anchors": ["tools/simutic.py: group", "tools/simutic.py: SimuTic.trame", "src/teleinfo.h: TeleinfoDecoder::put"]}
{"id": "C78", "title": "The simulator gives the JSON of the device", "statement": "The JSON documents of the simulator and those of a device that has received the same simulated frame have the same members and the same values, apart from the times and the notifications.", "quantifier": "every state of the simulated meter, every device whose last frame is the one of the simulator", "why_tests_cant": "All values of the counters; the two programs share no code.", "anchors": ["tools/simutic.py: SimuTic.json_dict", "tools/simutic.py: SimuTic.json_array", "src/tic.cpp: tic_get_json_dict", "src/tic.cpp: tic_get_json_array"]}
{"id": "C79", "title": "The page of restricted clients has no private part", "statement": "The page prepared for restricted clients is the page without its private parts, which run from an opening marker to the next closing marker: nothing of a private part is left and nothing else is removed. A page without the mark has no such version.", "quantifier": "every page", "why_tests_cant": "All texts: parts that contain markers, markers next to one another, parts that are not closed.", "anchors": ["prep_data_folder.py: make_restrict"]}
{"id": "C80", "title": "From the data folder to the client", "statement": "The home page and the version file put in the data folder are, byte for byte, what the device serves once the image of the folder is in its flash: the compressed page if there is one, the page of restricted clients to restricted clients, and the answer for a missing page only when the folder has none.", "quantifier": "every folder whose image is built without error, every client with access, every way the server reads the file by pieces", "why_tests_cant": "All folders and contents through two programs in different languages; a test has one folder.", "anchors": ["mkerfs32.py: create", "src/ERFS.cpp: ERFS::open", "src/filesystem.cpp: fs_handle_read", "src/webserver.cpp: webserver_handle_root"]}
{"id": "C81", "title": "The page and the device agree about an uploaded file", "statement": "When the page announces an update of the firmware, the device writes the file as a firmware; when it announces an update of the pages, the device writes the pages.", "quantifier": "every file name that the page accepts, every device", "why_tests_cant": "All names: the page and the device apply different rules, in different languages.", "anchors": ["data_src/index.html: update_file change handler", "src/update.cpp: upload callback"]}
{"id": "C82", "title": "The arrows of the table follow the values", "statement": "In the table of the meter, a counter value that is larger than the one shown before has an arrow up, a smaller one an arrow down, an equal one none.", "quantifier": "every sequence of refreshes, every label, every sequence of numerals of constant width", "why_tests_cant": "The arrow depends on what was shown before, without bound on the number of refreshes.", "anchors": ["data_src/index.html: valueFormatter"]}
{"id": "C83", "title": "The bar shows the load", "statement": "After each refresh, the width, the colour and the text of the bar, and the percentage in the tab, are those of the current divided by the subscribed current.", "quantifier": "every state of the page, every table with the subscribed current before the current, all values", "why_tests_cant": "All values, and all states left by earlier refreshes.", "anchors": ["data_src/index.html: valueFormatter"]}
{"id": "C84", "title": "Periodic notifications keep their pace", "statement": "Once the timers are set, each periodic service (HTTP update, Jeedom, emoncms, event stream) sends for a received frame exactly when a multiple of its period lies between the previous frame and this one: never more often than asked, and as often as asked while frames come at least once in each period, also when the 32-bit millisecond clock wraps.", "quantifier": "every setting of the periods up to 4294967 s, every clock value at the start, every sequence of frames of any length less than 2^32 ms minus a period apart", "why_tests_cant": "The clock wraps after 49.7 days, and the pace is a property of unbounded runs.", "anchors": ["src/tic.cpp: tic_make_timers", "src/tic.cpp: tic_notifs"]}
{"id": "C85", "title": "Each service gets the frame on time, whatever else happens", "statement": "When the last byte of a meter frame arrives, Jeedom, emoncms and the HTTP server receive a request with the values of that very frame, and the event-stream clients an event, exactly if a multiple of the service's period has passed since the frame before, the periods counting from the start of the device, the last configuration post that was not refused or the last 'set timers'; whatever requests, uploads and commands came in between.", "quantifier": "every build, flash content, start time, history of any length of timed events without return to factory settings, every meter frame, frames and periods such that their sum is below 2^32 ms", "why_tests_cant": "The statement is about unbounded histories that interleave meter bytes, web requests, uploads and a wrapping clock.", "anchors": ["src/tic.cpp: tic_decode, tic_notifs, tic_make_timers", "src/config.cpp: config_handle_form", "src/main.cpp: setup, loop", "src/cli.cpp: set timers"]}
{"id": "C86", "title": "The data folder follows the sources", "statement": "After each preparation the data folder has, for every source file, what the tools make of its present content, with a restricted version of the pages that ask for it, the version, and no other file.", "quantifier": "every folder of sources, every earlier content of the data folder, every history of changes and preparations, every minifier and compressor", "why_tests_cant": "Unbounded histories of folders with dates: what is removed, skipped and made again depends on what earlier runs left.", "anchors": ["prep_data_folder.py: prepare_www_files, make_restrict, get_minifier"]}
{"id": "C87", "title": "From the sources to the browser", "statement": "After any number of changes of the sources and preparations of the data folder, a device with the image made of this folder gives to a client with full access the present home page of the sources, minified and compressed, to a client with restricted access the texts of this page that are not in a private part, and the version of the last preparation at /version.", "quantifier": "every source folder and history of preparations, every minifier and compressor, every image size, device state, build and client, every way to read the file", "why_tests_cant": "Four programs in two languages take part; no test runs them together, and the histories are unbounded.", "anchors": ["prep_data_folder.py: prepare_www_files, make_restrict", "mkerfs32.py: create", "src/ERFS.cpp: open, read", "src/webserver.cpp: webserver_handle_root, webserver_handle_read"]}
{"id": "C88", "title": "Event streams arrive as sent", "statement": "Whatever a device has done since it started, a browser that reads the connection of an accepted event-stream client sees a successful event-stream answer and gets exactly one message per event sent to this client, in order, with the text unchanged; nothing is ever written on the connection of somebody who was not accepted.", "quantifier": "every run of any length, every client, every frame received and every text sent on one line", "why_tests_cant": "The answer, the frames and the separators are written at different times by different code; a test reads a few events, not all contents and interleavings.", "anchors": ["src/sse.h: SseClient, send_event, handle_clients", "src/tic.cpp: tic_get_json_dict"]}
{"id": "C89", "title": "The gauges show the meter", "statement": "When a frame is complete, the gauge tab of every page that follows the event stream shows what this frame says: apparent power, current, the indexes in kWh and the tariff in force.", "quantifier": "every history of the device, every meter frame, every earlier state of the page", "why_tests_cant": "It links the decoder, the JSON, the event stream and the script of the page; the page is not tested, and the values are unbounded.", "anchors": ["data_src/index.html: message listener of the gauges", "src/tic.cpp: tic_get_json_dict", "src/sse.h: send_event"]}
{"id": "C90", "title": "Network settings typed on the console are kept", "statement": "`set wifi` and `set ap` on the serial console replace the two settings they name, cut to the size of their fields, and nothing else; the device restarts, and if the flash could be written it starts with these settings, whatever Wi-Fi settings the SDK remembers.", "quantifier": "every state of the device, every text typed, every outcome of the writes at the start, every SDK settings", "why_tests_cant": "All lengths and contents of the texts, all previous settings, all write outcomes.", "anchors": ["src/cli.cpp: command set", "src/config.cpp: config_save, config_setup", "src/sys.cpp: sys_wifi_connect"]}
{"id": "C91", "title": "A restart or a power cut loses no setting", "statement": "From any content of the flash, whatever happens to a device whose flash can be written (meter data, web requests, forms, console commands, restarts, uploads) except `esp reset`, cutting the power at any time between two events loses no setting: the device starts again with exactly the settings it had; if it knew no network, the name and the key of the network may come from the SDK, and nothing else changes. Whoever is let in can restart the device with `/reset`, which itself changes nothing.", "quantifier": "every flash content, every sequence of events of any length, every outcome of the writes at the next start, every memory content", "why_tests_cant": "All interleavings of configuration changes and power cuts, of unbounded length.", "anchors": ["src/config.cpp: config_setup, config_save, config_reset, config_handle_form", "src/sys.cpp: sys_wifi_connect, sys_handle_reset", "src/cli.cpp: command set", "src/main.cpp: setup"]}
{"id": "C92", "title": "The dashboard records the meter", "statement": "The collector of the dashboard (`influx.py`) records, for every period in which the device sends a frame, exactly one measure: that of the first frame of the period, with the date and the values the meter gave (address, two indexes, power, current, tariff). When it polls, it records each new frame it is given, once.", "quantifier": "every contract of the meter, every frame, every sequence of messages or answers of any length, every period", "why_tests_cant": "All sequences and timings of messages, of unbounded length, and all frames of the meter.", "anchors": ["tools/dashboard/wifinfo_sse/influx.py: insert_data, sse, req", "src/tic.cpp: tic_get_json_dict", "src/sse.h"]}
{"id": "C93", "title": "The single-file Arduino sketch is the program", "statement": "The sketch that `mkarduinosrc.py --one` writes for the Arduino IDE compiles to the same program as the sources: every file that is needed is there, each line of code as many times as in its file, and the C preprocessor keeps the same lines in the same order as for the sources put one after the other. The tool ends for all sources, cyclic includes too, and fails only when an included file is missing.", "quantifier": "every set of source files of any size, every graph of inclusions, every order in which the file system lists the files, every value of every macro", "why_tests_cant": "All include graphs, cyclic ones too, all file orders and all macro values: a test compiles one tree, in the order of one disk, with one set of options.", "anchors": ["tools/mkarduinosrc.py: Amalgamation"]}
{"id": "C94", "title": "A backup of the settings can be restored", "statement": "Saving the settings of a device in a JSON file with `eeprom.py read`, then writing this file to a device with `eeprom.py write`, gives, after the start of the device, exactly the settings that were saved.", "quantifier": "every content of the flash a device accepts, every settings, texts with quotes, backslashes, control characters and characters of any script included", "why_tests_cant": "All contents of the settings, texts of any characters at any length: escapes, surrogate pairs, fields that are full, bytes left after a terminator.", "anchors": ["tools/eeprom.py: read_eeprom, write_eeprom, cmd_read, write", "src/config.cpp: config_setup, config_handle_form"]}
{"id": "C95", "title": "The console lists the settings", "statement": "The command `config` of the console shows every setting after its caption: the name of the network, the keys, the hosts, ports, addresses, periods, thresholds, and the switches that are on.", "quantifier": "every settings of a device, texts of any bytes", "why_tests_cant": "All values of thirty-two settings at once, texts of any bytes in fields of any fill: a caption printed in the wrong order or in the wrong section, a value that could be read as another line.", "anchors": ["src/config.cpp: config_show", "src/cli.cpp: config"]}
{"id": "C96", "title": "The dump of the console is the memory of the settings", "statement": "The command `dump` of the console shows every byte of the settings memory at its address; these bytes, given to the external tool, are read as the settings in use.", "quantifier": "every content of the memory; every sequence of starts, form posts, console commands and resets, whether or not the flash can be written", "why_tests_cant": "2^8192 contents of the memory and all the histories that lead to them.", "anchors": ["src/cli.cpp: cli_eeprom_dump", "src/config.cpp: config_save, config_read, config_setup", "tools/eeprom.py: read_eeprom"]}
{"id": "C97", "title": "The console tells the files and their version", "statement": "The command `ls` of the console lists every file of the file system once, numbered, with its name and its size; `get ver` shows the content of the version file.", "quantifier": "every set of files, names and contents of any bytes", "why_tests_cant": "All sets of files: names that look like sizes, more than nine files, sizes of any number of digits, version files longer than the buffer.", "anchors": ["src/filesystem.cpp: fs_ls", "src/cli.cpp: get ver", "src/ERFS.cpp: ERFSFileImpl::read", "src/ERFS.cpp: ERFSDirImpl::next"]}
{"id": "C98", "title": "A new file system takes the place of the old one", "statement": "When an image of the file system made by the builder is posted to /update, the device answers OK, and once restarted it serves exactly the files of the new folder, whatever it held before; a new program keeps the files, and both keep the settings.", "quantifier": "every folder, every image size up to the partition, every cut of the file into pieces, every previous content of the flash, every history of the device", "why_tests_cant": "All folders and all previous contents, from the builder through the upload to the answers of the web server.", "anchors": ["src/update.cpp: upload handler, sys_update_finish", "src/ERFS.cpp", "mkerfs32.py", "src/webserver.cpp: handleFileRead"]}
{"id": "C99", "title": "The LED tells what the device does", "statement": "The LED flashes once at each valid frame of the meter, if the option is set, and at nothing else; it blinks during an upload and is off afterwards, unless it has been lit on the console.", "quantifier": "every history of frames, noise, uploads that succeed or fail, timers and console commands", "why_tests_cant": "All interleavings of the two timers, the uploads and the frames; noise that looks like a frame.", "anchors": ["src/led.h", "src/tic.cpp: tic_decode", "src/update.cpp", "src/cli.cpp: cli_led", "src/main.cpp: setup", "src/sys.cpp: sys_wifi_connect"]}
{"id": "C100", "title": "An accepted file restarts the device", "statement": "Once the device has answered OK to an uploaded file it restarts by itself; and it never restarts in this way without that.", "quantifier": "every file, every cut into pieces, every client, every sequence of events before and after", "why_tests_cant": "The restart is half a second later: everything that can happen in between, on the web and on the console, must not lose it.", "anchors": ["src/update.cpp: POST /update, upload handler, sys_update_finish"]}
{"id": "C101", "title": "The page keeps itself up to date", "statement": "While a tab of the page is shown, its content is refreshed: the teleinformation 5 s after each answer, the system 1 s after, the gauges by one event stream. Each has at most one request under way, nothing is asked for the other tabs, and a request that fails is made again.", "quantifier": "every sequence of clicks on tabs and buttons, of answers, failures and timers, every address the page is opened with", "why_tests_cant": "The order in which clicks, transitions, answers and timers follow each other is unbounded; what is left of a tab shows only later.", "anchors": ["data_src/index.html: shown.bs.tab, load-success.bs.table, window.onload", "data_src/js/wifinfo.js: bootstrap-table refresh"]}
{"id": "C102", "title": "The network that is chosen is the one that is joined", "statement": "Of the list of networks that the page shows, the one that is clicked and the key that is entered are stored when the page is saved, and at the next start the device joins that very network with that key; no other setting changes.", "quantifier": "every neighbourhood, every row, every key, every previous configuration, every browser", "why_tests_cant": "Names of networks are any 0 to 32 bytes chosen by the neighbours; they go through the JSON of the device, the page and the form post.", "anchors": ["data_src/index.html", "src/sys.cpp", "src/config.cpp: config_handle_form"]}
{"id": "C103", "title": "The access point has the name and the key of the device", "statement": "A device that cannot join its network opens its own network under the name of the device and with the key that was set for it, open only if no key was set.", "quantifier": "every configuration that can be stored, every behaviour of the radio, every access point known to the SDK before", "why_tests_cant": "All texts of 0 to 64 bytes as names and keys; the effect shows at the next start only, when the network is missing.", "anchors": ["src/sys.cpp: sys_wifi_connect", "src/config.cpp: config_handle_form", "data_src/index.html"]}
{"id": "C104", "title": "The files of the page reach the browser", "statement": "After any number of changes of the sources and preparations of the data folder, a device with the image made of this folder gives each font, script and style sheet of the sources and the icon, as it is now, at its own address, to anybody; without the right credentials no other file but the version is given.", "quantifier": "every history of sources and preparations, every file of these folders, every request, every device", "why_tests_cant": "The browser, the web server, the image and the preparation each use another name for the same file (with or without .gz); a test sees one folder and one history.", "anchors": ["src/webserver.cpp: webserver_setup", "prep_data_folder.py: prepare_www_files", "mkerfs32.py", "src/ERFS.cpp"]}
{"id": "C105", "title": "What the page tells after an action is what happened", "statement": "The page tells that the settings are saved only if they are in use and survive a restart, and tells an error only if nothing changed; it tells that an update is done and waits for the restart only if the device restarts with it; it comes back after the restart that was asked for.", "quantifier": "every reachable device, every client and its rights, every form, every sequence of upload events and answers of the updater, every behaviour of the flash", "why_tests_cant": "The page decides with the HTTP code alone, the device answers from several places with several codes; a test has one device, one client and an updater and a flash that work.", "anchors": ["data_src/index.html", "src/config.cpp: config_handle_form", "src/update.cpp", "src/webserver.cpp"]}
{"id": "C106", "title": "Each button of the configuration page does what it says", "statement": "In any use of the configuration page, the settings are saved when and only when the user presses Enregistrer or Enter in a field; the device restarts when asked; it is reset only when this was confirmed, and giving up changes nothing.", "quantifier": "every sequence of presses, edits and closed dialogues, every content of the form, the full page and the page of restricted clients, every device", "why_tests_cant": "Which button submits the form follows from attributes that are absent, from the order of the page and from what the scripts prevent; all sequences of actions.", "anchors": ["data_src/index.html: frm_config", "data_src/js/wifinfo.js", "src/config.cpp: config_handle_form", "src/webserver.cpp"]}
{"id": "C107", "title": "The terminal of the project drives a device", "statement": "Whoever works with the terminal of the project, sending frames of the simulated meter by keys or by the timer and typing commands, makes the device execute exactly the commands typed, each once and in order, and publish exactly the frames sent, in order, with the values of the simulated meter.", "quantifier": "every session of keys and timer events, every state of the simulated meter and every draw of its values, every arrival time of the bytes", "why_tests_cant": "Commands and frames share one serial line, and two threads write to it; a test shows one interleaving of one session.", "anchors": ["tools/cli.py", "tools/simutic.py", "src/cli.cpp", "src/tic.cpp"]}
{"id": "C108", "title": "The tables of the page show texts as texts", "statement": "Each table of the page (networks in reach, system, meter) has one row for each item that the device sent, and each cell shows exactly the text that was sent: nothing in the name of a network, in a version or in a value of the meter becomes markup or script of the page.", "quantifier": "every list of networks and every order of its rows, every state of the system, every frame of the meter, every browser", "why_tests_cant": "The names of networks are chosen by strangers; a test shows the names it was written with, not all of them.", "anchors": ["data_src/index.html", "data_src/js/wifinfo.js", "src/sys.cpp: sys_wifi_scan_json", "src/tic.cpp"]}
{"id": "C109", "title": "The services receive what the meter said", "statement": "Each request that the device sends for a frame (Jeedom, emoncms, HTTP notification) is one HTTP request that the server of the setting understands: its path is that of the setting and its arguments are, in order, the key and the labels with the values of the frame, or those of the URL setting with the values of its labels; the body of a POST is the JSON of the frame.", "quantifier": "every frame of the meter, every settings of the three services, every kind of notification, every set of headers of the HTTP library", "why_tests_cant": "A test compares the URL with the expected text; whether a server reads back the same values depends on every character of the settings, of the frame and of the date, after the rules of HTTP and of queries.", "anchors": ["src/httpreq.cpp: http_request", "src/tic.cpp: http_notif, jeedom_notif, emoncms_notif, tic_emoncms_data", "README.md: Configuration des requêtes HTTP"]}
{"id": "C110", "title": "Nothing that the page asks is refused", "statement": "Whatever is done on the web page that the device has given to a browser (tabs, tables, form, dialogues, update, wait for a restart), the device accepts every request that the page sends: it asks for no credentials, answers no error and sends what is asked for.", "quantifier": "every sequence of events of the page, full or restricted, opened at any tab, every content of the form, every state and settings of the device, every client", "why_tests_cant": "A test tries some buttons with one kind of access; that no button of the page of a restricted client leads to a refusal is about all sessions of two pages made from one source, and about all settings of the device.", "anchors": ["data_src/index.html: script", "src/webserver.cpp: webserver_setup, webserver_get_auth", "src/update.cpp: sys_update_register", "prep_data_folder.py"]}
{"id": "C111", "title": "The date of a frame is the instant it arrived", "statement": "The date given with a frame (dictionary, array, /tic value, $date in a URL) denotes, with its difference to UTC, exactly the second at which the first byte of this frame arrived according to the clock of the device, and the difference told is that of the legal time in France at this instant (summer time from the last Sunday of March to the last Sunday of October, 1:00 UTC), leap years included; the same date is given everywhere, and $timestamp is the number of this second.", "quantifier": "every instant up to the end of the year 9999, every history of frames of a meter (for the JSON texts: that can be told in JSON, see C27)", "why_tests_cant": "A test checks some dates; changes of season and leap days make few seconds among billions special, and they fall on other days every year.", "anchors": ["src/teleinfo.h: get_timestamp_iso8601", "src/sys.cpp: sys_time_now", "src/timesync.cpp: MYTZ", "src/tic.cpp: tic_get_json_dict, tic_get_json_array, tic_get_value, http_add_value_ex", "README.md"]}
{"id": "C112", "title": "The sizes on the system page are true", "statement": "Each size that the system page shows (flash, program, free flash, free memory, file system and its use) is the number of bytes it stands for: exactly below 1024 bytes, else in the largest of kB, MB, GB that is not above it and rounded to the nearest hundredth of this unit, in spite of the rounding of floating-point operations; the percentage of use is the exact one rounded down.", "quantifier": "every size of 32 bits, every rounding of double precision that is monotonic, accurate to 53 bits and exact for integers, every client", "why_tests_cant": "Rounding goes wrong for few sizes among four billion (the digits are made one by one by inexact multiplications), a test tries some sizes.", "anchors": ["src/sys.cpp: sys_format_size, sys_get_info_json"]}
{"id": "C113", "title": "The clock on the console is right", "statement": "The command time of the console, and the message printed when a time server has been heard, tell the instant of the clock: the fields of the local time denote it in the legal time of France with the right day of the week, day of the year and summer time mark, the fields of the universal time denote it in UTC, the date in words denotes it in legal time and names the right day; the counters are those of the clocks.", "quantifier": "every instant of 32 bits, every value of the counters, any time servers", "why_tests_cant": "The day changes with the time zone at other moments than in UTC, and the library then corrects the day, the month, the year, the day of the week and of the year one by one; the wrong cases (end of month, leap day, new year, last Sundays) are few among four billion instants.", "anchors": ["src/timesync.cpp: print_tm, time_show, time_is_set_scheduled", "src/cli.cpp: cli_setup"]}
{"id": "C114", "title": "Updates over the air need the password", "statement": "Over the air, the flash memory is written only after an exchange in which the other side has answered a challenge of the device with the password of the settings (the empty password is one too); with the password an update of the program or of the files is accepted and the device restarts on it; a recorded answer is no use for another challenge; the device listens at the port of the settings; nobody disturbs the device without the password, and a password saved on the page is the one from then on.", "quantifier": "every sequence of datagrams, of rounds of the main loop and of saved settings, every password, every digest function of 32 digits", "why_tests_cant": "An attacker may send any datagrams in any order; a test sends some.", "anchors": ["src/sys.cpp: sys_wifi_connect, sys_ota_setup", "src/main.cpp: setup, loop"]}
{"id": "C115", "title": "The backup of the settings is in the file that was asked for", "statement": "When eeprom.py read says that the settings are saved, the file that was asked for holds the settings of the board, at the place where the board keeps them, in the format that its extension tells; eeprom.py write of this file gives another board these settings; a backup that fails leaves the previous one as it was; reading changes nothing on the board, and writing changes nothing but the sector of the settings, and only if the user agreed; conv gives the same settings in the other formats.", "quantifier": "every content of the flash, every file name and previous file, every answer of esptool.py, boards of 1 and 4 megabytes", "why_tests_cant": "The test converts one configuration in memory; it runs no command, and never a failure of esptool.py.", "anchors": ["tools/eeprom.py: get_eeprom_base, write, cmd_read, cmd_conf"]}
{"id": "C116", "title": "The system page tells the network and the options as they are", "statement": "The system page names the network with which the device is connected, and none when it is not connected; the number of Wi-Fi connections it shows is the number of times the device has joined its network since it started; the options it lists are those the firmware was built with.", "quantifier": "every start, every sequence of losses and returns of the network and of saved forms, every build", "why_tests_cant": "Connections are lost and found at any time while settings change; the tests have a mock that is always connected, and one build.", "anchors": ["src/sys.cpp: sys_get_info_json, sys_wifi_connect", "platformio.ini", "src/main.cpp: setup"]}
{"id": "C117", "title": "The bar of an upload tells the upload", "statement": "While a file is sent, the page shows a bar with the name of this file, whose width is the part that was sent to the nearest percent, and the amounts that were sent and are to be sent to the nearest unit; the bar does not go back, it is full when everything was sent, and it is red exactly when the upload failed. The button is there only for a file that can be sent.", "quantifier": "every sequence of choices of files, presses, progress events, answers and failures; every size below 2^40; every rounding of the operations on doubles", "why_tests_cant": "The bar depends on all that happened since the page was loaded and on sizes and times of progress events that are the browser's; the tests do not run the page.", "anchors": ["data_src/index.html: formatSize, progressUpload, change handler of file_fw, click handler of btn_upload_fw"]}
{"id": "C118", "title": "The installation of the README gives the pages and keeps the settings", "statement": "On a board with any content, the image made from a folder with the size that the README gives, and written with the program at the addresses that the README gives, in any order, makes the device find exactly the files of the folder; the settings of the device are not touched. The size given to the builder is a number of bytes, kilobytes or megabytes.", "quantifier": "every folder, every program that ends before the files, every content of the flash, both boards, every size argument", "why_tests_cant": "The result depends on the whole content of the flash, on the size of every file and on sector boundaries; no test writes a board.", "anchors": ["README.md: Installation, Génération du filesystem ERFS", "mkerfs32.py: create", "platformio.ini: board_build.ldscript"]}
{"id": "C119", "title": "The commands tic and set of the console do what is typed", "statement": "`tic` prints the date of the last frame of the meter and its groups, one in a line. `set wifi` and `set ap` with a name and a key replace these two settings and nothing else; `set gpio` reads or writes the pin that is typed and the line printed says which pin and which level; `set timers` gives each timer the period of the settings; a command with a word missing, a number out of range or another first word changes nothing.", "quantifier": "every state of the device, every frame of a meter, every content of the memory, every list of words typed, every level of the pins", "why_tests_cant": "The unit tests never run the console; all words and all numbers matter, and what the stack held before.", "anchors": ["src/cli.cpp: commands tic, set", "src/tic.cpp: tic_dump"]}
{"id": "C120", "title": "The sketch for the Arduino IDE has the files of the project", "statement": "The archive or the folder that `mkarduinosrc.py` makes for the Arduino IDE has every source file and every file of the data folder, each once, unchanged and at the place where the IDE looks for it, and nothing else; with `--one`, the single file in the place of the sources. The archive has the extension `.zip`.", "quantifier": "every tree of sources and of data, every earlier content of the target folder, every name of the target", "why_tests_cant": "All trees of files and all earlier contents of the folder; the tests do not run the tool.", "anchors": ["tools/mkarduinosrc.py: cmd_arduino_ide"]}
{"id": "C121", "title": "The terminal opens the port that is chosen and shows what the device prints", "statement": "`cli.py` without argument lists the serial ports; when there is one, it is opened without a question; otherwise the number that is typed opens the port that has this number in the list, numbers out of the list are asked again, and a name opens the port that has this name. The console shows the characters that the device prints, in order, however they are cut on the line.", "quantifier": "every list of ports, every sequence of typed lines, every output of the device and every way to cut it", "why_tests_cant": "All lists, lines and cuts; the tests do not run the terminal.", "anchors": ["tools/cli.py: ask_for_port, Miniterm.reader"]}
{"id": "C122", "title": "To a program, the files of an image are a read-only folder", "statement": "Whatever a program does with the mounted image — any number of files and listings open at the same time, reads, seeks, listings, opening what a listing shows, attempts to write, create, rename or delete, unmounting and mounting again, in any order — it is answered exactly as by a folder that holds the files given to the builder and never changes: names, sizes, dates and contents are those of the files, each open file has its own position, every attempt to change something is refused.", "quantifier": "every set of files that fits, every sequence of calls of any length", "why_tests_cant": "All sequences of calls on all images; the tests replace the file system by a stub.", "anchors": ["src/ERFS.cpp: ERFSImpl, ERFSFileImpl, ERFSDirImpl", "tools/mkerfs32.py"]}
{"id": "C123", "title": "A new device is put into service with a browser", "statement": "A device that holds no settings opens a network without key, named after its chip. Whoever joins it is given the full page and the settings; the form posted with a network and its key is accepted and, after the restart asked for on the page, the device joins that network with that key, every other setting being as from the factory; if the network cannot be joined the device opens its own network again.", "quantifier": "every content of the flash that is not accepted, every chip, every name and key, every browser, whatever happens between the requests short of other changes of the settings", "why_tests_cant": "It crosses the whole program: EEPROM, Wi-Fi, web server, page, form, restart; and anything may happen between the steps.", "anchors": ["src/main.cpp: setup", "src/config.cpp", "src/sys.cpp: sys_wifi_connect", "src/webserver.cpp", "data_src/index.html"]}
{"id": "C124", "title": "The simulated meter counts", "statement": "The frames of the simulated meter are those of a meter that counts: an index never goes down, only that of the running tariff moves, from one frame to the next it grows by the energy of the time between them at the power that is shown, and the values keep the sizes of those of a real meter, so that a device that receives these frames publishes them.", "quantifier": "every sequence of frames and keys of any length during five years of the clock, every draw, every rounding of the floating-point numbers", "why_tests_cant": "Random numbers, the clock and rounding errors that add up over millions of frames.", "anchors": ["tools/simutic.py: SimuTic.iinst, papp, bascule, trame"]}
{"id": "C125", "title": "A device that has been protected stays protected", "statement": "From the moment the device has answered OK to a form that sets a user name and a password, and whatever happens then (requests of anybody, requests through a proxy, meter, uploads, restarts, power cuts, network commands of the console): nobody without these credentials gets anything but the public resources, opens an event stream or changes a setting; only somebody on the local network who gives them can change or remove them; whoever gives them is never asked for others.", "quantifier": "every history before and after the form, every user name and password of at most 31 bytes, every request of strangers and of the proxy", "why_tests_cant": "The claim is an invariant of all later histories, with restarts at any point and any mixture of clients.", "anchors": ["src/webserver.cpp: webserver_get_auth, webserver_access_full, webserver_access_ok", "src/config.cpp: config_handle_form, config_setup", "src/sse.h: SseClients"]}
{"id": "C126", "title": "Saving the configuration page changes only what was changed on it", "statement": "When the user opens the configuration tab, changes some of the controls and saves, the settings they changed become what they entered and all the other settings stay as they are.", "quantifier": "every settings of the device, every set of changed controls with every value, every browser, every state of the device at the time of the save, local and restricted pages", "why_tests_cant": "The form posts every control at once, so each of the 32 settings depends on how it was shown, posted and read back; the claim is about all combinations of changes and about what others did in the meantime.", "anchors": ["data_src/index.html: frm_config, autofill, serialize", "src/config.cpp: config_get_json, config_handle_form"]}
{"id": "C127", "title": "What the device must hold in memory for an answer or a request is bounded", "statement": "Whatever the meter has sent and whatever has been asked before, each text that the device builds - the body of an answer, an event of the stream, the address or the data of a request that it makes - has at most 4096 bytes, not counting what the event itself brings (the request repeated in a 404 answer, the files, the networks found, a text typed at the console).", "quantifier": "every run from a boot, every event, every settings, every content of the line, every number of networks, files and arguments", "why_tests_cant": "The bound is over all frames, all templates and all settings; a String that cannot be allocated on the device is silently truncated, which only happens with the worst data.", "anchors": ["src/tic.cpp: tic_get_json_dict, tic_get_json_array, http_notif, jeedom_notif, emoncms_notif", "src/config.cpp: config_get_json", "src/sys.cpp: sys_get_info_json, sys_wifi_scan_json", "src/filesystem.cpp: fs_get_json", "src/webserver.cpp: webserver_handle_notfound"]}
{"id": "C128", "title": "The page on the PC works with the device", "statement": "With the development proxy of the README (`tools/httpdev.sh`), the page given from the source folder works with the device as the page of the device does: whatever is done on it, each request that it sends gets the answer that the device gives to the same client directly, the device ends in the same state, and everything else comes from the source folder as it is.", "quantifier": "every address, method, client and content of the folder; every use of the page of any length, and anything that happens to the device in the meantime; every state and settings", "why_tests_cant": "The routing is by the longest of thirteen prefixes over all addresses, and the equality of the two devices is over all sessions interleaved with all events.", "anchors": ["tools/default.conf: location", "tools/httpdev.sh", "data_src/index.html: script", "src/webserver.cpp: webserver_setup, webserver_get_auth"]}
{"id": "C129", "title": "The page works with the simulated module", "statement": "With the simulated module of the tools (`tools/srv.py`), the page shows what it shows with a device: whatever is asked, by any number of pages, each page that shows the gauges gets one message for each event and shows the current, the power, the indexes and the tariff of the simulated meter at that moment; the tables show the groups that the meter would send, the system and the networks; and each request that the page sends is answered as a device does, including those of its buttons.", "quantifier": "every sequence of requests and events of any length, interleaved over any number of event streams; every clock, draw, rounding of the floating-point numbers and date; every use of the page", "why_tests_cant": "The streams share one meter that each reading moves on; the claim is over all interleavings of pages, over all the clocks and draws, and over all that can be done on the page.", "anchors": ["tools/srv.py", "tools/simutic.py: SimuTic", "data_src/index.html: script"]}
{"id": "C130", "title": "The programs that follow the event stream miss nothing", "statement": "`tools/sse.py` shows, and the collector of the dashboard receives, every event that the device sends after they were started, whatever the period of the stream that can be configured, and they need no restart: after an interruption of the network or a restart of the device they come back by themselves and miss only what was sent meanwhile.", "quantifier": "every sequence of events, lost and closed connections at any times, without bound; every answer of the network to each attempt; every period and every spacing of the frames", "why_tests_cant": "What is lost depends on how the times of all the events fall against the time-out and the pauses of the program; the claim is over all sequences of times and failures of any length.", "anchors": ["tools/sse.py: main", "tools/dashboard/wifinfo_sse/influx.py: sse", "src/sse.h", "src/config.cpp: config_reset"]}
{"id": "C131", "title": "What the browser shows is what the device has", "statement": "At any time, what a browser shows at an address of the device is what the device answers there now: after a new file system was installed, or after a password was set, the next visit shows the new page with its own scripts and its own version, and values and settings are never those of an earlier visit.", "quantifier": "every sequence of visits, reloads and evictions of the cache of the browser at any times and addresses, without bound; every history of the device (states, settings, file systems)", "why_tests_cant": "A test sees the answers of the device, not what a browser shows again without asking; the claim is over all histories of the device and of the browser.", "anchors": ["src/webserver.cpp: webserver_setup, webserver_handle_read, webserver_handle_notfound", "src/sse.h: SseClient", "data_src/index.html: script"]}
{"id": "C132", "title": "The gauges come back after an interruption", "statement": "While the tab of the gauges is shown, the gauges follow the device: after any interruption (the device restarted, was switched off and on, was out of reach, or had no room for one more client) they move again by themselves soon after the device is back.", "quantifier": "every sequence of clicks on tabs, messages, closed and lost connections at any times, every history of what the device answers, every reconnection time of the browser", "why_tests_cant": "The order of interruptions, attempts, answers and clicks is unbounded in length and time.", "anchors": ["data_src/index.html: script (source, shown.bs.tab)", "src/sse.h: SseClients::handle_sse_data, SseClient"]}
{"id": "C133", "title": "The version that is shown tells the commit", "statement": "The version shown by the web page, by the console and in the table of the system is the text that git gives for the sources it was built from: who reads it knows the commit, and a build that cannot tell it is not made.", "quantifier": "every name of branch or tag of any length, every number of commits, every commit, every source and data folder, every image size", "why_tests_cant": "The text goes through git, the preparation, the image, the file system and the web server or the console; the claim is over all names and commits.", "anchors": ["prep_data_folder.py: get_version, prepare_www_files", "src/webserver.cpp: webserver_setup", "src/cli.cpp: cli_setup (get ver)", "src/sys.cpp: sys_get_info_json"]}
{"id": "C134", "title": "The table of the meter can be searched and sorted", "statement": "In the table of the meter a text in the search field leaves exactly the rows whose label or value contains it, upper and lower case alike, shown as they would be without the search; a click on the title of a column puts the rows in order by it, numbers by their value, a second click reverses the order, and the rows stay in this order until another click.", "quantifier": "every sequence of refreshes, searches and clicks, every table, every text, every browser that sorts and compares as the standard says", "why_tests_cant": "The state of the table depends on the whole sequence of refreshes, searches and clicks; no test looks at the page.", "anchors": ["data_src/index.html: tab_tinfo_data, labelFormatter, valueFormatter", "data_src/js/wifinfo.js: initSort, onSort, initSearch, onSearch, load, initBody of bootstrap-table"]}
{"id": "C135", "title": "The dashboard shows what the meter has counted", "statement": "The panels of the dashboard show the meter: the current indexes and the current power are those of its last measure, nothing when it is more than an hour old; the curves of the consumption are never negative and add up to what the meter has counted, up to the first and the last interval, whatever is missing in between; the curve of the cost adds up to this energy at the prices with taxes of the collector; the curves of the intensity and of the power show the highest, the mean and the lowest of the measures of each interval.", "quantifier": "every number of meters, every sequence of measures, every range of time, every width of the intervals", "why_tests_cant": "The claim is over all series of measures with any gaps; the queries run in a database that no test starts.", "anchors": ["tools/dashboard/dashboard.json: panels", "tools/dashboard/wifinfo_sse/influx.py: insert_data, tariffs"]}
{"id": "C136", "title": "The meter is heard while the device works", "statement": "The device decodes the bytes of the meter in their order, inventing none, whatever it does meanwhile. None is lost exactly as long as in no stretch of time the bytes outnumber the turns of the program by more than the buffer of the serial line holds: with the 255 bytes of the core and the 1200 bauds of the meter, a loop that is otherwise fast enough may be held two seconds. When bytes are lost, frames are missing but what is published is still what the meter has sent, and the device recovers with the first whole frame.", "quantifier": "every sequence of bytes, every interleaving of bytes and turns, every duration of the turns, every size of the buffer", "why_tests_cant": "The claim is over all interleavings of the interrupt that receives the bytes and the program, with any durations; the tests give the bytes to the decoder one after the other.", "anchors": ["src/main.cpp: setup, loop", "src/tic.cpp: tic_decode, tic_notifs", "src/teleinfo.h: TeleinfoDecoder::put"]}
{"id": "C137", "title": "The device is on its network whenever the network is there", "statement": "Once a network is stored, and after any sequence of starts, power cuts, losses and returns of the network, with nobody touching the device: the device is on its network exactly when the network is there.", "quantifier": "every network, every sequence of starts, losses and returns of the network, every sequence of answers of the radio while it tries to join", "why_tests_cant": "The claim is over all histories of the network and of the current, in all orders; the tests have no radio and no start.", "anchors": ["src/sys.cpp: sys_wifi_connect", "src/main.cpp: setup", "src/config.cpp: config_setup"]}
{"id": "C138", "title": "A service that gets the notifications knows the state of the meter", "statement": "A service that gets the HTTP notifications of overload, of the thresholds and of the tariff period, and believes what the last one has said, believes the state of the meter, whatever happens between: frames, requests that do not arrive, restarts of the device.", "quantifier": "every life of a device: all sequences of frames, of requests that arrive or not, and of restarts", "why_tests_cant": "The claim is over all lives, with losses and restarts at any place; the tests look at the notifications of a few frames of one run in which no request fails.", "anchors": ["src/tic.cpp: http_notif_adps, http_notif_seuils, http_notif_periode_en_cours", "src/httpreq.cpp: http_request"]}
{"id": "C139", "title": "Looking at the device changes nothing", "statement": "A request that only asks to see something (method GET: a link, an address typed, an image in a page of another site, the preview of a message) never changes the settings and never restarts, resets or erases the device.", "quantifier": "every device, every GET request, every client", "why_tests_cant": "The claim is over all addresses, arguments and credentials in all states of the device; the unit tests call the handlers without the web server, hence without methods.", "anchors": ["src/webserver.cpp: webserver_setup (lines 147-173: /config_form.json, /factory_reset, /reset)", "src/config.cpp: config_handle_form"]}
{"id": "C140", "title": "The keys stay in the device", "statement": "The Wi-Fi key, the key of the access point, the key of the updates over the air and the password never leave the device: nothing that it answers to anybody, sends to a service or puts on the event stream tells anything of them.", "quantifier": "every pair of devices that differ only by their keys, every sequence of requests, meter bytes, event-stream polls and console commands between two starts", "why_tests_cant": "The claim compares all pairs of devices over all sequences of requests and frames (non-interference); a test compares a few answers with expected texts and cannot show that no answer depends on a key.", "anchors": ["src/config.cpp: config_get_json, config_handle_form", "src/webserver.cpp: webserver_get_auth, server_send_json, webserver_handle_notfound", "src/sys.cpp: sys_get_info_json", "src/tic.cpp: tic_notifs"]}
{"id": "C141", "title": "What is set for one service is of no effect on the others", "statement": "The host, port, path, key, period and triggers set for emoncms, for jeedom or for the HTTP requests are told to that service only: what the other services get, the events of the stream and the answers to all requests but that for the configuration do not depend on them, and saving the form never mixes them with other settings, as long as the device does not fault. The settings of emoncms and of jeedom never make it fault.", "quantifier": "every service, every pair of devices whose stored settings differ only by those of the service, every sequence of restarts, power cuts, failed writes, requests, uploads, meter bytes and console commands", "why_tests_cant": "Non-interference compares all pairs of settings over all sequences of events; a test compares a few requests with expected texts and cannot show that no key, host or period set for a service ever shows elsewhere.", "anchors": ["src/tic.cpp: tic_notifs, tic_make_timers, http_notif, jeedom_notif, emoncms_notif", "src/config.cpp: config_handle_form, config_save, config_setup", "src/webserver.cpp: webserver_setup, server_send_json"]}
{"id": "C142", "title": "What the command esp lists can be read back", "statement": "The list that the console command `esp info` prints tells every value on the line that has its name, in decimal, in hexadecimal or as text, so that it can be read back without ambiguity; the places of the settings and of the file system are offsets in the flash, and the settings take one sector.", "quantifier": "every chip identifier, size, counter, version and address text on one line, and every placement of the settings and of the file system in the mapped flash", "why_tests_cant": "The texts depend on the module, its SDK and its memory map; a test sees the values of one module and cannot show that every value is written without loss and that no text can hide another line.", "anchors": ["src/cli.cpp: cli_setup (command esp, lines 206-241)"]}
{"id": "C143", "title": "What a device tells is in the last frame", "statement": "Two devices that have last heard the same frame at the same time show the same values, page by page and label by label, to whoever is let in, and send the same events to those who follow them, whatever each has heard, done or been set to before: a device that was just restarted, or was put in the place of another one, shows what the other would show. Only the estimated power needs the frames before, and no more than the last 48.", "quantifier": "every two devices with any boot, settings, requests, uploads and bytes before, every frame, every request for the values", "why_tests_cant": "It compares any two pasts: the memory of the frame keeps bytes of older, longer frames and the samples go back to the first frame since the start; a test compares a few pasts.", "anchors": ["src/teleinfo.h: copy_from, get_value, get_value_next, watt", "src/tic.cpp: tic_decode, tic_get_json_dict, tic_get_json_array, tic_emoncms_data, tic_get_value", "src/webserver.cpp: webserver_setup, webserver_handle_notfound"]}

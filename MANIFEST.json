{
 "claims": [
  {
   "property": "C01",
   "status": "proved",
   "theorems": [
    "Cifs.C01_anytime",
    "Cifs.C01_all_servers",
    "Cifs.C01_log",
    "Cifs.C01_log_open",
    "Cifs.C01_history",
    "Cifs.C01_open"
   ],
   "note": ""
  },
  {
   "property": "C02",
   "status": "proved",
   "theorems": [
    "Cifs.C02_layout",
    "Cifs.C02_written_completely",
    "Cifs.C02_success_means_complete",
    "Cifs.C02_too_big_refused"
   ],
   "note": ""
  },
  {
   "property": "C03",
   "status": "proved",
   "theorems": [
    "Cifs.C03_program",
    "Cifs.C03_login",
    "Cifs.C03_open",
    "Cifs.C03_operations",
    "Cifs.C03_keepalives_invisible"
   ],
   "note": ""
  },
  {
   "property": "C04",
   "status": "proved",
   "theorems": [
    "Cifs.C04_delivers_exactly",
    "Cifs.C04_bad_frames",
    "Cifs.C04_too_long"
   ],
   "note": ""
  },
  {
   "property": "C05",
   "status": "proved",
   "theorems": [
    "Cifs.C05_which",
    "Cifs.C05_cut_is_an_error"
   ],
   "note": ""
  },
  {
   "property": "C06",
   "status": "proved",
   "theorems": [
    "Cifs.C06_isSessionRequest",
    "Cifs.C06_refused",
    "Cifs.C06_open",
    "Cifs.C06_name",
    "Cifs.C06_request_layout",
    "Cifs.C06_session"
   ],
   "note": ""
  },
  {
   "property": "C07",
   "status": "proved",
   "theorems": [
    "Cifs.C07_port_fails",
    "Cifs.C07_port",
    "Cifs.C07_direct",
    "Cifs.C07_unreachable",
    "Cifs.C07_fallback"
   ],
   "note": ""
  },
  {
   "property": "C08",
   "status": "proved",
   "theorems": [
    "Cifs.C08_recv",
    "Cifs.C08_collect",
    "Cifs.C08_recv_ends",
    "Cifs.C08_collect_ends",
    "Cifs.C08_call",
    "Cifs.C08_call_ends",
    "Cifs.C08_login",
    "Cifs.C08_login_ends",
    "Cifs.C08_recvMessage_terminates"
   ],
   "note": ""
  },
  {
   "property": "C09",
   "status": "proved",
   "theorems": [
    "Cifs.C09_download",
    "Cifs.C09_header"
   ],
   "note": "C09_header is about all operations, C09_download gives the tree ids of the requests of a download; the headers of a login are in C65_headers, the multiplex ids in C10_ids."
  },
  {
   "property": "C10",
   "status": "proved",
   "theorems": [
    "Cifs.C10_program",
    "Cifs.C10_ids",
    "Cifs.C10_all_sent",
    "Cifs.C10_one_attempt"
   ],
   "note": ""
  },
  {
   "property": "C11",
   "status": "partial",
   "theorems": [
    "Cifs.C11_checked_stuck",
    "Cifs.C11_checked_reached",
    "Cifs.C11_release_reuse",
    "Cifs.C11_window_partial"
   ],
   "note": "The claim fails after 65535 requests: C11_checked_stuck, C11_checked_reached and C11_release_reuse exhibit the counter overflow (panic in a checked build, id reuse otherwise). C11_window_partial holds for all histories short of that."
  },
  {
   "property": "C12",
   "status": "proved",
   "theorems": [
    "Cifs.C12_program",
    "Cifs.C12_login",
    "Cifs.C12_own_reply",
    "Cifs.C12_foreign_replies"
   ],
   "note": ""
  },
  {
   "property": "C13",
   "status": "proved",
   "theorems": [
    "Cifs.C13_accepted_iff",
    "Cifs.C13_rejected",
    "Cifs.C13_call"
   ],
   "note": ""
  },
  {
   "property": "C14",
   "status": "proved",
   "theorems": [
    "Cifs.C14_any",
    "Cifs.C14_login_any",
    "Cifs.C14_unexpected"
   ],
   "note": "C14_unexpected is about operations that make one request and the first reply to it. C14_any is about all calls and all replies to all of their requests: it says which reply an error of this kind is about. That such a reply always leads to the error follows from C15_all_granted and, with the exact outcome, from C71_call, C71_download and C71_list."
  },
  {
   "property": "C15",
   "status": "proved",
   "theorems": [
    "Cifs.C15_any",
    "Cifs.C15_all_granted",
    "Cifs.C15_login_any",
    "Cifs.C15_never_success",
    "Cifs.C15_login_never_success",
    "Cifs.C15_status",
    "Cifs.C15_success"
   ],
   "note": "C15_status and C15_success are about operations that make one request and the first reply to it; C15_any and C15_all_granted about all calls and all replies to all of their requests. The exact outcome of each step of a download or listing is in C71_download and C71_list."
  },
  {
   "property": "C16",
   "status": "proved",
   "theorems": [
    "Cifs.C16_roundtrip",
    "Cifs.C16_injective",
    "Cifs.C16_named",
    "Cifs.C16_unnamed",
    "Cifs.C16_success"
   ],
   "note": ""
  },
  {
   "property": "C17",
   "status": "proved",
   "theorems": [
    "Cifs.C17_read",
    "Cifs.C17_roundtrip",
    "Cifs.C17_mask"
   ],
   "note": ""
  },
  {
   "property": "C18",
   "status": "proved",
   "theorems": [
    "Cifs.C18_path",
    "Cifs.C21_openfile",
    "Cifs.C21_opendir",
    "Cifs.C21_download",
    "Cifs.C22_mount",
    "Cifs.C23_delete",
    "Cifs.C23_rmdir",
    "Cifs.C24_find_first"
   ],
   "note": ""
  },
  {
   "property": "C19",
   "status": "proved",
   "theorems": [
    "Cifs.C19_consistent",
    "Cifs.C19_login"
   ],
   "note": ""
  },
  {
   "property": "C20",
   "status": "proved",
   "theorems": [
    "Cifs.C20_read"
   ],
   "note": ""
  },
  {
   "property": "C21",
   "status": "proved",
   "theorems": [
    "Cifs.C21_openfile",
    "Cifs.C21_opendir",
    "Cifs.C21_download"
   ],
   "note": ""
  },
  {
   "property": "C22",
   "status": "partial",
   "theorems": [
    "Cifs.C22_mount_open",
    "Cifs.C22_mount",
    "Cifs.C22_recover",
    "Cifs.C22_password_partial",
    "Cifs.C22_violated"
   ],
   "note": "The code violates the last part: C22_violated (one NUL character as password gives the request of the empty password). The layout of the request is proved for all passwords and paths (C22_mount, C22_mount_open), the path can always be recovered (C22_recover), the password in all other cases (C22_password_partial)."
  },
  {
   "property": "C23",
   "status": "proved",
   "theorems": [
    "Cifs.C23_close",
    "Cifs.C23_umount",
    "Cifs.C23_delete",
    "Cifs.C23_rmdir"
   ],
   "note": ""
  },
  {
   "property": "C24",
   "status": "proved",
   "theorems": [
    "Cifs.C24_notify_all",
    "Cifs.C24_find_first",
    "Cifs.C24_find_next",
    "Cifs.C24_list",
    "Cifs.C24_notify"
   ],
   "note": ""
  },
  {
   "property": "C25",
   "status": "partial",
   "theorems": [
    "Cifs.C25_negotiate",
    "Cifs.C25_authenticate",
    "Cifs.C25_classic",
    "Cifs.C25_sent",
    "Cifs.C25_refused",
    "Cifs.C25_violated_panic",
    "Cifs.C25_partial"
   ],
   "note": "Fails for search patterns in a certain length range: C25_violated_panic shows the panic. C25_partial covers everything else."
  },
  {
   "property": "C26",
   "status": "proved",
   "theorems": [
    "Cifs.C26_fits",
    "Cifs.C26_never_refused",
    "Cifs.C26_sent"
   ],
   "note": ""
  },
  {
   "property": "C27",
   "status": "partial",
   "theorems": [
    "Cifs.C27_login_partial",
    "Cifs.C27_violated_login",
    "Cifs.C27_violated",
    "Cifs.C27_partial",
    "Cifs.C27_size_partial",
    "Cifs.C27_exactly",
    "Cifs.C27_nameless"
   ],
   "note": "The negotiated buffer size is not enforced: C27_violated is the witness, C27_partial gives the bound that does hold. C27_login_partial gives the sizes of the requests of a login, and C27_violated_login a login whose second request is longer than what the server accepts."
  },
  {
   "property": "C28",
   "status": "partial",
   "theorems": [
    "Cifs.C28_violated_login",
    "Cifs.C28_violated",
    "Cifs.C28_partial",
    "Cifs.C28_names_partial",
    "Cifs.C28_exactly"
   ],
   "note": "Path names are always sent as UTF-16 even when Unicode was not negotiated: C28_violated. C28_exactly: for non-empty ASCII names the encoding is the announced one exactly if Unicode was negotiated or the call is mount."
  },
  {
   "property": "C29",
   "status": "proved",
   "theorems": [
    "Cifs.C29_read",
    "Cifs.C29_mismatch",
    "Cifs.C29_only"
   ],
   "note": ""
  },
  {
   "property": "C30",
   "status": "proved",
   "theorems": [
    "Cifs.C30_open",
    "Cifs.C30_directory",
    "Cifs.C30_unique",
    "Cifs.C30_only"
   ],
   "note": ""
  },
  {
   "property": "C31",
   "status": "proved",
   "theorems": [
    "Cifs.C31_only",
    "Cifs.C31_mount",
    "Cifs.C31_unique"
   ],
   "note": ""
  },
  {
   "property": "C32",
   "status": "proved",
   "theorems": [
    "Cifs.C32_only_negotiate",
    "Cifs.C32_only_session",
    "Cifs.C32_negotiate",
    "Cifs.C32_refused",
    "Cifs.C32_session"
   ],
   "note": ""
  },
  {
   "property": "C33",
   "status": "proved",
   "theorems": [
    "Cifs.C33_notify",
    "Cifs.C33_only",
    "Cifs.C33_all",
    "Cifs.C33_unique",
    "Cifs.C33_ends"
   ],
   "note": ""
  },
  {
   "property": "C34",
   "status": "partial",
   "theorems": [
    "Cifs.C34_partial",
    "Cifs.C34_order_partial",
    "Cifs.C34_permuted",
    "Cifs.C34_violated"
   ],
   "note": "The code violates the property (C34_violated): a message that brings nothing of one block and gives 0 as its place is refused, although the place of an empty block means nothing. C34_partial covers all cuts and orders for messages that place both blocks in their data bytes."
  },
  {
   "property": "C35",
   "status": "proved",
   "theorems": [
    "Cifs.C35_success",
    "Cifs.C35_unique",
    "Cifs.C35_displacement",
    "Cifs.C35_error"
   ],
   "note": ""
  },
  {
   "property": "C36",
   "status": "partial",
   "theorems": [
    "Cifs.C36_partial",
    "Cifs.C36_count",
    "Cifs.C36_only",
    "Cifs.C36_unique",
    "Cifs.C36_all",
    "Cifs.C36_violated",
    "Cifs.C36_oem"
   ],
   "note": "The code violates the property in sessions without Unicode (C36_violated): names are always read as UTF-16. C36_oem: in such a session no entry of any page with ASCII names gets its right name. The other theorems are for Unicode names."
  },
  {
   "property": "C37",
   "status": "partial",
   "theorems": [
    "Cifs.C37_partial",
    "Cifs.C37_measured",
    "Cifs.C37_count",
    "Cifs.C37_exactly",
    "Cifs.C37_same",
    "Cifs.C37_all",
    "Cifs.C37_zero",
    "Cifs.C37_violated",
    "Cifs.C37_oem",
    "Cifs.C37_violated_list"
   ],
   "note": "The code violates the property (C37_violated): find_next refuses a list whose last distance is 0. Proved: C37_partial (the lists without a distance of 0 are shown), C37_exactly (all other conforming lists are refused), C37_zero (these are all lists but the empty one, if they are written as the protocol says), C37_violated_list (list fails with such a page), C37_oem (in a session without Unicode no entry gets its right name, as in C36)."
  },
  {
   "property": "C38",
   "status": "partial",
   "theorems": [
    "Cifs.C38_login_partial",
    "Cifs.C38_open_partial",
    "Cifs.C38_download_partial",
    "Cifs.C38_list_partial",
    "Cifs.C38_violated_name",
    "Cifs.C38_challenge",
    "Cifs.C38_partial",
    "Cifs.C38_search_partial",
    "Cifs.C38_header",
    "Cifs.C38_status",
    "Cifs.C38_violated"
   ],
   "note": "The code violates the property (C38_violated): short replies make it panic. C38_partial and C38_search_partial say exactly which replies do, for every operation with one request; C38_login_partial, C38_open_partial, C38_download_partial and C38_list_partial say exactly which exchanges crash a login, a download and a listing. C38_violated_name: even a server that does nothing wrong crashes a listing with a name of 32726 to 32760 characters."
  },
  {
   "property": "C39",
   "status": "partial",
   "theorems": [
    "Cifs.C39_ceiling",
    "Cifs.C39_release",
    "Cifs.C39_violated",
    "Cifs.C39_content_partial"
   ],
   "note": "Proved for builds without overflow checks, for files of any size (C39_release). With overflow checks the multiplex ids limit what can be downloaded (C39_ceiling), so that the property is violated for files of four gigabytes (C39_violated, a consequence of C11); C39_content_partial holds as long as ids are left."
  },
  {
   "property": "C40",
   "status": "proved",
   "theorems": [
    "Cifs.C40_course",
    "Cifs.C40_offsets",
    "Cifs.C40_result",
    "Cifs.C40_unique"
   ],
   "note": ""
  },
  {
   "property": "C41",
   "status": "partial",
   "theorems": [
    "Cifs.C41_budget",
    "Cifs.C41_partial",
    "Cifs.C41_violated",
    "Cifs.C41_checked_partial"
   ],
   "note": "The code violates the property (C41_violated): a server that answers every read with an empty chunk keeps the download reading forever (in a build without overflow checks). C41_partial: a download that is still reading after more rounds than the file has bytes got an empty chunk. C41_budget: the iteration budget is only a device of the model. C41_checked_partial: with overflow checks every download ends, after at most 65535 requests. That each single request ends is C08."
  },
  {
   "property": "C42",
   "status": "partial",
   "theorems": [
    "Cifs.C42_partial",
    "Cifs.C42_violated"
   ],
   "note": "The code violates the property (C42_violated): a last chunk that is longer than asked for is kept whole. C42_partial: the data has the announced size, or only the last chunk reaches beyond it."
  },
  {
   "property": "C43",
   "status": "partial",
   "theorems": [
    "Cifs.C43_partial",
    "Cifs.C43_violated"
   ],
   "note": "The code violates the property (C43_violated): when a read fails, no close request is sent. C43_partial: a download that returns sends the close request exactly if it got all of the file."
  },
  {
   "property": "C44",
   "status": "proved",
   "theorems": [
    "Cifs.C44_complete",
    "Cifs.C44_course",
    "Cifs.C44_requests",
    "Cifs.C44_result",
    "Cifs.C44_unique"
   ],
   "note": "A further page is what find_next reads as one; lists whose last distance is 0 are none (see C37 and C80_pages). In a build with overflow checks, as long as multiplex ids are left (C11, C39_ceiling); without these checks there is no such limit."
  },
  {
   "property": "C45",
   "status": "proved",
   "theorems": [
    "Cifs.C45_unwrap"
   ],
   "note": ""
  },
  {
   "property": "C46",
   "status": "proved",
   "theorems": [
    "Cifs.C46_open",
    "Cifs.C46_opening",
    "Cifs.C46_flow",
    "Cifs.C46_login",
    "Cifs.C46_session"
   ],
   "note": ""
  },
  {
   "property": "C47",
   "status": "partial",
   "theorems": [
    "Cifs.C47_partial",
    "Cifs.C47_violated"
   ],
   "note": "The claim fails: C47_violated is a login whose last reply says MORE_PROCESSING_REQUIRED and which still succeeds. C47_partial: the last status is SUCCESS or MORE_PROCESSING_REQUIRED."
  },
  {
   "property": "C48",
   "status": "proved",
   "theorems": [
    "Cifs.C48_open",
    "Cifs.C48_response",
    "Cifs.C48_login",
    "Cifs.C48_capitals",
    "Cifs.C48_sharp"
   ],
   "note": ""
  },
  {
   "property": "C49",
   "status": "proved",
   "theorems": [
    "Cifs.C49_login",
    "Cifs.C49_negotiate",
    "Cifs.C49_authenticate",
    "Cifs.C49_parts",
    "Cifs.C49_forms",
    "Cifs.C49_form_used",
    "Cifs.C49_calls"
   ],
   "note": ""
  },
  {
   "property": "C50",
   "status": "proved",
   "theorems": [
    "Cifs.C50_exact",
    "Cifs.C50_decode",
    "Cifs.C50_unique"
   ],
   "note": ""
  },
  {
   "property": "C51",
   "status": "proved",
   "theorems": [
    "Cifs.C51_without",
    "Cifs.C51_only_answers",
    "Cifs.C51_afterwards",
    "Cifs.C51_only_the_hash"
   ],
   "note": ""
  },
  {
   "property": "C52",
   "status": "proved",
   "theorems": [
    "Cifs.C52_key",
    "Cifs.C52_key_unique",
    "Cifs.C52_response",
    "Cifs.C52_response_exactly",
    "Cifs.C52_open",
    "Cifs.C52_login"
   ],
   "note": ""
  },
  {
   "property": "C53",
   "status": "proved",
   "theorems": [
    "Cifs.C53_decode",
    "Cifs.C53_monotone",
    "Cifs.C53_encode",
    "Cifs.C53_roundtrip",
    "Cifs.C53_roundtrip_decode"
   ],
   "note": ""
  },
  {
   "property": "C54",
   "status": "proved",
   "theorems": [
    "Cifs.C54_utf16",
    "Cifs.C54_utf16_strict",
    "Cifs.C54_utf16_even",
    "Cifs.C54_utf8",
    "Cifs.C54_utf8_strict",
    "Cifs.C54_utf8_standard",
    "Cifs.C54_utf16_definition",
    "Cifs.C54_utf16_terminated",
    "Cifs.C54_utf8_terminated",
    "Cifs.C54_unterminated"
   ],
   "note": ""
  },
  {
   "property": "C55",
   "status": "proved",
   "theorems": [
    "Cifs.C55_resolves",
    "Cifs.C55_sound",
    "Cifs.C55_fails",
    "Cifs.C55_ascii"
   ],
   "note": ""
  },
  {
   "property": "C56",
   "status": "partial",
   "theorems": [
    "Cifs.C56_partial",
    "Cifs.C56_violated"
   ],
   "note": "The code violates the property (C56_violated): smb://host:445/share/dir@v1/file is read with user host and password 445/share/dir. C56_partial says exactly for which configurations resolving inverts formatting. The Unicode classes \\w and \\d are parameters fixed on ASCII only."
  },
  {
   "property": "C57",
   "status": "partial",
   "theorems": [
    "Cifs.C57_partial",
    "Cifs.C57_violated"
   ],
   "note": "The code violates the property (C57_violated): smb://host/C$/dir resolves to share C without a path. C57_partial says what can be dropped."
  },
  {
   "property": "C58",
   "status": "proved",
   "theorems": [
    "Cifs.C58_pointwise",
    "Cifs.C58_length",
    "Cifs.C58_no_slash",
    "Cifs.C58_idempotent",
    "Cifs.C58_fixed"
   ],
   "note": ""
  },
  {
   "property": "C59",
   "status": "proved",
   "theorems": [
    "Cifs.C59_program",
    "Cifs.C59_own_commands",
    "Cifs.C59_modifying"
   ],
   "note": ""
  },
  {
   "property": "C60",
   "status": "proved",
   "theorems": [
    "Cifs.C60_nothing_written",
    "Cifs.C60_unbuilt",
    "Cifs.C60_overlong"
   ],
   "note": ""
  },
  {
   "property": "C61",
   "status": "partial",
   "theorems": [
    "Cifs.C61_program_partial",
    "Cifs.C61_history_partial",
    "Cifs.C61_late_replies_partial",
    "Cifs.C61_violated"
   ],
   "note": "Proved as long as the multiplex ids do not wrap around (C61_late_replies_partial; C61_history_partial for late replies to calls given up on the way, arriving at any time). In a build without overflow checks they do after 65536 requests, and a late reply to the first one is taken for the reply to the new one (C61_violated, a consequence of C11)."
  },
  {
   "property": "C62",
   "status": "proved",
   "theorems": [
    "Cifs.C62_program",
    "Cifs.C62_stable"
   ],
   "note": ""
  },
  {
   "property": "C63",
   "status": "proved",
   "theorems": [
    "Cifs.C63_any",
    "Cifs.C63_login_any",
    "Cifs.C63_text",
    "Cifs.C63_server_error"
   ],
   "note": ""
  },
  {
   "property": "C64",
   "status": "proved",
   "theorems": [
    "Cifs.C64_any",
    "Cifs.C64_login_any",
    "Cifs.C64_injective",
    "Cifs.C64_commands",
    "Cifs.C64_unexpected",
    "Cifs.C64_login",
    "Cifs.C64_lines",
    "Cifs.C64_line_texts"
   ],
   "note": ""
  },
  {
   "property": "C65",
   "status": "proved",
   "theorems": [
    "Cifs.C65_open",
    "Cifs.C65_headers"
   ],
   "note": ""
  },
  {
   "property": "C66",
   "status": "proved",
   "theorems": [
    "Cifs.C66_operation",
    "Cifs.C66_program",
    "Cifs.C66_unambiguous",
    "Cifs.C66_possible",
    "Cifs.C66_services"
   ],
   "note": "Further pages of a search are offered in the format that find_next reads, without a distance of 0 (see C37; C80_pages says what happens otherwise). In a build with overflow checks, as long as multiplex ids are left (C11, C39_ceiling); without these checks there is no such limit."
  },
  {
   "property": "C67",
   "status": "partial",
   "theorems": [
    "Cifs.C67_sent_partial",
    "Cifs.C67_login_partial",
    "Cifs.C67_violated"
   ],
   "note": "The code violates the property (C67_violated): an interrupted write leaves part of a packet on the wire and the connection stays usable. The partial theorems say what holds: whole messages, plus at most the beginning of one if the call was given up or failed while writing."
  },
  {
   "property": "C68",
   "status": "partial",
   "theorems": [
    "Cifs.C68_call_partial",
    "Cifs.C68_login_partial",
    "Cifs.C68_session_partial",
    "Cifs.C68_violated",
    "Cifs.C68_violated_size"
   ],
   "note": "The code violates the property (C68_violated, C68_violated_size): after a call given up in the middle of a packet, or a packet refused as too big, the next call reads from the middle of a packet. The partial theorems: every call that does not report trouble with the connection consumes whole packets, and so do all calls if packets arrive whole."
  },
  {
   "property": "C69",
   "status": "proved",
   "theorems": [
    "Cifs.C69_login",
    "Cifs.C69_right",
    "Cifs.C69_wrong",
    "Cifs.C69_program",
    "Cifs.C69_possible",
    "Cifs.C69_open",
    "Cifs.C69_open_right",
    "Cifs.C69_open_refused",
    "Cifs.C69_open_wrong"
   ],
   "note": ""
  },
  {
   "property": "C70",
   "status": "proved",
   "theorems": [
    "Cifs.C70_operation",
    "Cifs.C70_program",
    "Cifs.C70_unambiguous",
    "Cifs.C70_mute"
   ],
   "note": ""
  },
  {
   "property": "C71",
   "status": "proved",
   "theorems": [
    "Cifs.C71_call",
    "Cifs.C71_download",
    "Cifs.C71_list"
   ],
   "note": ""
  },
  {
   "property": "C72",
   "status": "proved",
   "theorems": [
    "Cifs.C72_login",
    "Cifs.C72_open"
   ],
   "note": ""
  },
  {
   "property": "C73",
   "status": "proved",
   "theorems": [
    "Cifs.C73_program",
    "Cifs.C73_call",
    "Cifs.C73_calls"
   ],
   "note": ""
  },
  {
   "property": "C74",
   "status": "proved",
   "theorems": [
    "Cifs.C74_program",
    "Cifs.C74_call",
    "Cifs.C74_calls",
    "Cifs.C74_login",
    "Cifs.C74_open"
   ],
   "note": ""
  },
  {
   "property": "C75",
   "status": "partial",
   "theorems": [
    "Cifs.C75_log_only",
    "Cifs.C75_log_only_open",
    "Cifs.C75_log_lines",
    "Cifs.C75_log_lines_open",
    "Cifs.C75_log_partial",
    "Cifs.C75_log_mount_partial",
    "Cifs.C75_violated_mount",
    "Cifs.C75_outcome_partial",
    "Cifs.C75_violated",
    "Cifs.C75_violated_client",
    "Cifs.C75_violated_verbatim"
   ],
   "note": "The code violates the property (C75_violated, C75_violated_client, C75_violated_verbatim): the derived Debug of Auth and Cifs shows the password. Mounting a share logs a line that tells the length of the share's password up to one byte (C75_violated_mount). The partial theorems: the outcome of opening a connection, the ports tried, the number of bytes sent, the lines logged then and while any program runs afterwards are the same for any two passwords, if the server says the same things (C75_outcome_partial, C75_log_partial); so are outcome and log of a mount for two share passwords of the same length (C75_log_mount_partial). C75_log_lines and C75_log_lines_open say which lines are logged: they are determined by the kinds and lengths of the packets, in order, the ports tried, and what a notification is asked for. C75_log_only and C75_log_only_open show that the functions with a log do what those without do."
  },
  {
   "property": "C76",
   "status": "partial",
   "theorems": [
    "Cifs.C76_result_partial",
    "Cifs.C76_changes_partial",
    "Cifs.C76_violated"
   ],
   "note": "The code violates the property (C76_violated): the records of a notification reply may overlap, so that a reply of 12 n + 76 bytes gives a list of size 6 n^2 + 6 n. The partial theorems: all other results are at most as big as what was received; lists of changes are at most as big as its square, and have at most as many entries as bytes were received."
  },
  {
   "property": "C77",
   "status": "proved",
   "theorems": [
    "Cifs.C77_program",
    "Cifs.C77_call",
    "Cifs.C77_login",
    "Cifs.C77_session",
    "Cifs.C77_calls"
   ],
   "note": ""
  },
  {
   "property": "C78",
   "status": "partial",
   "theorems": [
    "Cifs.C78_sizes_partial",
    "Cifs.C78_received_partial",
    "Cifs.C78_requests_partial",
    "Cifs.C78_violated"
   ],
   "note": "The code violates the property (C78_violated): requests reserve as many bytes as the server announced in its negotiate reply, up to 4 GiB. The partial theorems: what is reserved for replies is bounded; for requests it is exactly the announced number throughout the session."
  },
  {
   "property": "C79",
   "status": "partial",
   "theorems": [
    "Cifs.C79_budget",
    "Cifs.C79_partial",
    "Cifs.C79_finite_partial",
    "Cifs.C79_checked_partial",
    "Cifs.C79_violated"
   ],
   "note": "The code violates the property (C79_violated): a server that never marks the last page keeps the listing going forever (in a build without overflow checks). C79_partial: a listing still running after k rounds has received k + 1 pages, none of them empty. C79_finite_partial: so it ends within n rounds if the server sends at most n entries. C79_checked_partial: with overflow checks every listing ends. C79_budget: the iteration budget is only a device of the model."
  },
  {
   "property": "C80",
   "status": "partial",
   "theorems": [
    "Cifs.C80_operation_partial",
    "Cifs.C80_program_partial",
    "Cifs.C80_session_partial",
    "Cifs.C80_services",
    "Cifs.C80_open_partial",
    "Cifs.C80_pages",
    "Cifs.C80_standard",
    "Cifs.C80_violated"
   ],
   "note": "The code violates the property (C80_violated): with a server that ends further pages of a search by a distance of 0, as MS-CIFS has it, every listing that needs more than one page fails (C80_pages; the cause is that of C37). The partial theorems are about servers whose further pages are written as find_next reads them."
  },
  {
   "property": "C81",
   "status": "proved",
   "theorems": [
    "Cifs.C81_tables",
    "Cifs.C81_used",
    "Cifs.C81_apart",
    "Cifs.C81_handle",
    "Cifs.C81_kinds",
    "Cifs.C81_share",
    "Cifs.C81_entry",
    "Cifs.C81_listed",
    "Cifs.C81_first"
   ],
   "note": ""
  },
  {
   "property": "C82",
   "status": "partial",
   "theorems": [
    "Cifs.C82_partial",
    "Cifs.C82_violated"
   ],
   "note": "The code violates the property (C82_violated): a listing that fails after its first page leaves the search open; there is no request in the client that closes one. C82_partial: a listing that returns entries got a last page with a request that makes the server close the search; no request of any listing closes it otherwise."
  },
  {
   "property": "C83",
   "status": "proved",
   "theorems": [
    "Cifs.C83_taken",
    "Cifs.C83_padding",
    "Cifs.C83_most",
    "Cifs.C83_login"
   ],
   "note": ""
  },
  {
   "property": "C84",
   "status": "partial",
   "theorems": [
    "Cifs.C84_bound_partial",
    "Cifs.C84_replay",
    "Cifs.C84_stale",
    "Cifs.C84_legacy",
    "Cifs.C84_cipher",
    "Cifs.C84_replay_legacy",
    "Cifs.C84_violated",
    "Cifs.C84_violated_server"
   ],
   "note": "The code violates the second half of the property: C84_violated (for every server, a third party that replaces only the reply to the negotiation gets a legacy response to its own challenge) and C84_violated_server (a server that lets everybody in is accepted). The first half holds: C84_bound_partial and C84_replay (extended security), C84_legacy, C84_cipher and C84_replay_legacy (legacy response; DES as modelled is proved injective)."
  },
  {
   "property": "C85",
   "status": "proved",
   "theorems": [
    "Cifs.C85_snapshot",
    "Cifs.C85_possible",
    "Cifs.C85_needed",
    "Cifs.C85_reads"
   ],
   "note": "In a build with overflow checks, as long as multiplex ids are left (C11, C39_ceiling); without these checks there is no such limit."
  },
  {
   "property": "C86",
   "status": "partial",
   "theorems": [
    "Cifs.C86_answers",
    "Cifs.C86_order",
    "Cifs.C86_complete_partial",
    "Cifs.C86_behind",
    "Cifs.C86_possible",
    "Cifs.C86_violated"
   ],
   "note": "The code violates this: C86_violated (a call that is given up leaves its request at the server; the changes in the answer to it are lost), C86_behind (with a server that answers change by change, nothing is ever told again). Proved: C86_answers (which answer belongs to which call), C86_order (what is told is right, in order, told once), C86_complete_partial (nothing is lost if no call is given up). Assumes that the 16-bit multiplex ids do not wrap around during the calls."
  },
  {
   "property": "C87",
   "status": "partial",
   "theorems": [
    "Cifs.C87_blind",
    "Cifs.C87_violated",
    "Cifs.C87_violated_each",
    "Cifs.C87_kept_partial"
   ],
   "note": "The code violates this: C87_violated (a login succeeds on any terms, such as required signatures), C87_violated_each (each of the five terms alone), C87_blind (only four fields of the greeting have any influence on the login and the session). Proved: C87_kept_partial (dialect, form, encoding, buffer size and length of the challenge are as announced)."
  },
  {
   "property": "C88",
   "status": "partial",
   "theorems": [
    "Cifs.C88_matches",
    "Cifs.C88_exact_partial",
    "Cifs.C88_folded_partial",
    "Cifs.C88_star",
    "Cifs.C88_possible",
    "Cifs.C88_violated"
   ],
   "note": "The code violates this: C88_violated (delete(share, \"*\") succeeds and deletes everything at the top of the share, with every server that matches names as the protocol says). Proved: C88_matches (exactly what the name matches is deleted), C88_exact_partial (with names without wildcards, exactly the named file), C88_folded_partial (the same for servers that do not tell certain characters of a name apart, such as small letters from capital ones), C88_possible (there are such servers). The names of directories are compared as they are."
  },
  {
   "property": "C89",
   "status": "partial",
   "theorems": [
    "Cifs.C89_partial",
    "Cifs.C89_possible",
    "Cifs.C89_lends",
    "Cifs.C89_violated"
   ],
   "note": "The code violates this: C89_violated (a handle whose share was unmounted, or that was closed by reference, reads from another file once the server reuses its number). Proved: C89_partial (all programs that do neither), C89_possible and C89_lends (there are such servers, and they give numbers as the protocol says)."
  },
  {
   "property": "C90",
   "status": "partial",
   "theorems": [
    "Cifs.C90_heard",
    "Cifs.C90_plain_partial",
    "Cifs.C90_violated",
    "Cifs.C90_kind",
    "Cifs.C90_login",
    "Cifs.C90_service",
    "Cifs.C90_possible",
    "Cifs.C90_violated_delete"
   ],
   "note": "The code violates this: C90_violated (every call with a NUL in its name is heard as another call), C90_violated_delete (another file is deleted), C90_kind and C90_login (what comes after the NUL is read as the kind of share, or as the domain). Proved: C90_heard (exactly what is heard), C90_plain_partial (names without NUL), C90_service and C90_possible (what such servers look like, and that there are such servers)."
  },
  {
   "property": "C91",
   "status": "partial",
   "theorems": [
    "Cifs.C91_astray",
    "Cifs.C91_service_partial",
    "Cifs.C91_files_partial",
    "Cifs.C91_violated"
   ],
   "note": "The code violates this: C91_violated (anything that is no name and fits a reply is taken for a name, in listings and notifications), C91_astray (so a program that copies a directory is led out of it). Proved: C91_service_partial (services that tell names only), C91_files_partial (file systems with names only)."
  },
  {
   "property": "C92",
   "status": "proved",
   "theorems": [
    "Cifs.C92_copy",
    "Cifs.C92_session",
    "Cifs.C92_safe",
    "Cifs.C92_brings",
    "Cifs.C92_open"
   ],
   "note": "In a build with overflow checks, as long as multiplex ids are left (C11, C39_ceiling); without these checks there is no such limit."
  },
  {
   "property": "C93",
   "status": "partial",
   "theorems": [
    "Cifs.C93_text_partial",
    "Cifs.C93_text_next_partial",
    "Cifs.C93_violated",
    "Cifs.C93_violated_next",
    "Cifs.C93_violated_list",
    "Cifs.C93_text_notify_partial",
    "Cifs.C93_violated_notify"
   ],
   "note": "The code violates this: C93_violated (a page with a name that is no text makes find_first fail, whatever else is on it), C93_violated_next, C93_violated_list and C93_violated_notify (the same for further pages, for list and for notifications). Proved: C93_text_partial, C93_text_next_partial and C93_text_notify_partial (first pages, further pages and notifications in which all names are text are shown)."
  },
  {
   "property": "C94",
   "status": "proved",
   "theorems": [
    "Cifs.C94_call",
    "Cifs.C94_noticed",
    "Cifs.C94_stays",
    "Cifs.C94_login",
    "Cifs.C94_login_noticed",
    "Cifs.C94_open"
   ],
   "note": ""
  },
  {
   "property": "C95",
   "status": "partial",
   "theorems": [
    "Cifs.C95_program_partial",
    "Cifs.C95_cuts_open_partial",
    "Cifs.C95_cuts_partial",
    "Cifs.C95_violated"
   ],
   "note": "The code violates this: C95_violated (somebody on the way who lets the login pass answers all later requests in the place of the server, for any service). Proved: C95_cuts_open_partial and C95_cuts_partial (a party that only cuts the stream into other pieces changes nothing)."
  },
  {
   "property": "C96",
   "status": "proved",
   "theorems": [
    "Cifs.C96_operation",
    "Cifs.C96_program",
    "Cifs.C96_possible",
    "Cifs.C96_login"
   ],
   "note": "In a build with overflow checks, as long as multiplex ids are left (C11, C39_ceiling); without these checks there is no such limit."
  },
  {
   "property": "C97",
   "status": "proved",
   "theorems": [
    "Cifs.C97_login",
    "Cifs.C97_call",
    "Cifs.C97_mapped",
    "Cifs.C97_history",
    "Cifs.C97_program",
    "Cifs.C97_log",
    "Cifs.C97_log_program"
   ],
   "note": ""
  },
  {
   "property": "C98",
   "status": "proved",
   "theorems": [
    "Cifs.C98_operation",
    "Cifs.C98_program",
    "Cifs.C98_prompt",
    "Cifs.C98_delayed",
    "Cifs.C98_metered",
    "Cifs.C98_login"
   ],
   "note": ""
  },
  {
   "property": "C99",
   "status": "partial",
   "theorems": [
    "Cifs.C99_fetch_partial",
    "Cifs.C99_refused_partial",
    "Cifs.C99_violated",
    "Cifs.C99_wrong_partial"
   ],
   "note": "The code violates this: C99_violated (for a URI with a port and an @ in its path, another host is contacted, under an account made of parts of the URI). Proved: C99_fetch_partial (for all other URIs the right host is contacted and the outcome is the contents of the file, or why there are none), C99_refused_partial (an account that does not exist) and C99_wrong_partial (a wrong password)."
  }
 ]
}
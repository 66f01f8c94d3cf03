# Formal model of re-gmbh/cifs-client: design

The crate in /repo (version 0.3.1, a CIFS/SMB1 client in about 4400 lines of Rust) is modelled function by function as executable
Lean 4 definitions, and the 99 properties of `properties.jsonl` are stated and proved about that model.

## Approach

Everything the crate computes is a total, executable Lean function under `lean/Verif/Model`.

* `Bytes = List UInt8`, Rust `String` = `List Char` (both are lists of Unicode scalar values), fixed-width integers are `UIntN`.
* A Rust `Result` whose evaluation may panic is `Res e a = ok | err | panic`. Every `Buf` primitive that panics on underflow, every
  out-of-range `slice`, `unwrap`, `expect` and checked overflow is an explicit `panic`.
* Network code runs in a state monad `M e S a : S -> Out e a x S`, with outcomes ok / err / panic / pending (waiting for bytes that have
  not arrived) / running (iteration budget of an unbounded loop used up). The state survives every outcome, as with `&mut self`.
  Continuing from a `pending` outcome is what happens when a caller drops the future (timeout, `select!`) and uses the client again.
* The TCP connection is a `World`: segments not read yet, a schedule of partial writes, write failures and blocked writes, all bytes
  written, and a server state advanced by an arbitrary oracle `react` whenever a frame has been written completely. What follows the
  arrived bytes (end of stream, blocking, an I/O error) is decided by the oracle too.
* Callers are lists of API calls (`Op`, `runOps`), continued whatever each call returns, or programs (`Spec.Prog`) that choose each call by the outcomes of
  the earlier ones. A run of a program is such a list, and where the calls of the list have the same outcomes the program runs in the same way
  (`run_history`, `follows_run` in `Props/Adaptive`), so what holds of all lists holds of all programs.

## Layout

* `Verif/Model/*`  the model; each definition cites the file and lines in /repo
* `Verif/Spec/*`   small specifications that do not use the model's functions: field-at-offset predicates, MS-CIFS reply layouts,
  text encodings, RFC 1001 names, the NTLM message layout and NTLMv2 check, a URI grammar, server behaviours
* `Verif/Lemmas/*` helper lemmas
* `Verif/Props/*`  the property theorems, each with `example`s showing that a concrete case meets its hypotheses

## Trusted base

1. Lean's kernel (4.33.0). No `axiom`, `sorry`, `admit`, `native_decide`, `bv_decide`, `implemented_by` or `unsafe`; no Mathlib import.
2. The three standard axioms `propext`, `Classical.choice`, `Quot.sound`, as listed per theorem at the end of this file.
3. The reading of the Rust code: that `Verif/Model` says what the code does. Nothing was run; the tie is the citation on each definition.
4. The assumed semantics of what the code calls:
   * `bytes` 1.x: `get_*`, `copy_to_bytes`, `advance` panic on underflow; `slice(a..b)` panics unless `a <= b <= len`; `BytesMut` grows
     on demand, so `remaining_mut()` is `usize::MAX - len`;
   * tokio's `read_u8`, `read_exact`, `read_buf`, `write` on a `TcpStream`: reads deliver the bytes in order, in arbitrary portions; a
     write accepts any number of bytes, fails or blocks; `flush` on a `TcpStream` does nothing;
   * 64-bit `usize`; `self.mid += 1` and `10 * x` panic on overflow if overflow checks are on (`Env.checked`) and wrap otherwise;
   * `num_enum`'s `TryFromPrimitive` is a table lookup, `bitflags`' `from_bits_truncate` is masking with the declared bits, its `{:?}` lists the names of the flags that are set;
   * `str::encode_utf16`, `char::decode_utf16`, `String::from_utf8`, `str::as_bytes`, `u16::from_str_radix` as documented (spelt out in
     `Model/Utils` and `Model/Uri`; C54 relates them to the Unicode definitions);
   * `regex` 1.x: leftmost-first semantics, i.e. the match a backtracking matcher finds first at the leftmost position; the Unicode
     classes `\w` and `\d` are parameters fixed on ASCII only;
   * `chrono`: a `DateTime` is an instant; adding a duration panics outside its range (a lower bound of the range is used, and C53
     shows that no 64-bit FILETIME reaches it);
   * `HashMap` iteration order is irrelevant where it is used; `sorted()` sorts by offset since offsets are unique.
5. The theorems hold for every MD4, HMAC-MD5, DES and `str::to_uppercase` (`Crypto`); only the lengths forced by the Rust array types are
   assumed. `Model/Crypto` writes the hash functions and the cipher down as their standards define them, for replaying tests only.
   Servers are assumed to capitalize user names as `str::to_uppercase` does, which turns `ß` into `SS`; what follows if a server does not: `C48_capitals`, `C48_sharp`.
   The clock and the eight random bytes of one login are parameters (`Env.now`, `Env.random`).

As a check of item 3, `Props/Tests` evaluates every unit test of the crate (headers, negotiate and session-setup messages and replies, NTLM
messages, password hashes, the disabled challenge-response test, URIs) on the model in the kernel; all give what the Rust test expects.
`windows_time`, which reads the clock, is C53_roundtrip for all instants. After the proofs were done the model was compared with the source once more, file by
file; no difference was found.

## What is modelled

| /repo/src | model | not modelled |
|---|---|---|
| `lib.rs` `Cifs` | `Model/Client` all methods, `open`, histories; `Model/Logged` the same with the lines that `tracing::debug!` writes | sizes of buffers reserved in advance are in `Model/Alloc`, apart from the functions |
| `lib.rs` `resolve_smb_uri` | `Model/Uri` | the regex crate itself (its documented semantics are the model) |
| `netbios.rs` | `Model/Net` | `connect`'s name resolution: an oracle per port |
| `smb/info.rs`, `smb/common.rs`, `win.rs` | `Model/Info`, `Model/Win`, `Model/Flags` | `Debug` other than of `NTStatus`, `Cmd`, `Auth` and `Cifs` |
| `smb/msg.rs`, `smb/trans.rs`, `smb/trans2/msg.rs`, `smb/trans2/subcmd/*` | `Model/Msg` | - |
| `smb/reply.rs`, `smb/trans.rs`, `smb/trans2/reply.rs`, `subreply/*`, `collector.rs` | `Model/Reply` | - |
| `ntlm/*` | `Model/Ntlm` | - |
| `utils.rs` | `Model/Utils`, `Model/Crypto` | - |
| `*/error.rs` | `Error`, `SmbError`, `NbError`, `NtlmError` (texts: `Model/Display`) | variants that are never constructed; texts of operating system errors (a parameter) |

Simplifications, each also stated at its definition:

* `download` and `list` take an iteration budget; the outcome `running` means "still busy after that many rounds". C41_budget and C79_budget show that
  the budget does nothing else, and theorems about them hold for every budget. The receive loops get a budget that provably suffices (C08).
* A successful `write` of 0 bytes is `accept 0`; the schedule is finite, after it every write is accepted whole.
* A `SessionSetup` secret is a byte list instead of `[u8; 24]`; that it has 24 bytes is a theorem (C52_response).
* An abandoned call is one that is `pending`, i.e. the future was dropped at the point where it waits for bytes or for the socket. Bytes that were already there when it was dropped count as
  arriving later (C01_anytime).
* The server speaks when a request has been written completely, and is told nothing of a request that was written in part (C67_violated). C01_anytime shows that for histories of calls
  nothing is lost: a server that sends bytes or changes its state at any moment between the calls, depending on all bytes written so far, looks to the client like one of the model's.
* `E.random` and `E.now` are fixed in an environment; a login draws them once.

Not expressible here: memory use, timing, thread interleavings (all methods take `&mut self`, so there are none inside one client), drop
order, the operating system's TCP.

## Wrong programs

The theorems were tested against edited models in a copy outside this directory; `seeded/LOG.jsonl` has a line for each edit. The edits of sets 1 to 3, 7 and 9 to 16 were made by hand,
with the claims they should break (set 9: the log lines, and edits of earlier sets tried again; sets 10 and 11: aimed at the claims that came last; set 12: at replies that end a call; set 13: at the claims hit least; sets 14 and 15: at definitions not edited before; set 16: repairs of the faults listed in the next section, after which the theorems that show a violation must fail); those of sets 5 and 6 were generated from the text of the definitions, in random order, and are a sample. Sets 17 and 18 were generated from the text of the specifications in `Spec` and of the definitions in `Props`, at most two edits for each definition: a theorem that holds with a wrong specification as well says too little. To know when reading the log:

* Generated edits after which the model itself does not typecheck test no theorem and are not in the log (47 at the time of writing).
* `failed` lists the declarations whose proofs were seen to fail. `property_theorems_resting_on_failed` and `claims_hit` are computed from it: the theorems of the manifest whose proofs use one of
  these, by the dependencies of the unedited development. A proof may fail because of its form although its statement still holds, so this shows that an edit is noticed, not that each of these claims is false of it.
* For the generated edits the build was stopped as soon as one theorem of the manifest was hit, and modules behind a failure were not built; so `failed` is not all that would fail. For edits made by hand
  the failed proofs were taken out and the build went on as long as a predicted claim was missing, at most a dozen times (sets 1 and 2), or the build was stopped in the same way as for the generated ones (sets 3, 7 and 9), or only the modules of the predicted claims were built, failed proofs taken out, until all predicted claims were hit (sets 10 to 16). For set 16 `should_fail` has the predicted theorems, and `failed_themselves` those whose own proofs failed; the others rest on a proof that failed.
  Those that had not hit all predicted claims after this were run again, building only the modules of the predicted claims and taking out failed proofs; such lines have the field `rerun`, and their
  `failed` is that of the rerun. `not_hit` lists the predicted claims that were still missing at the end.
* An edit that was tried again, after a theorem was tightened, has one line; `first_attempt` says what came of the first try.
* Lines with `survived` are edits that no theorem noticed; the note says why. Lines with `only_examples_or_lemmas` were noticed only by test vectors or by lemmas: mostly the hash functions
  and the cipher, about which the claims say nothing because they hold for any such functions.

## Where the code does not have the property

Each of these is a theorem named `..._violated` (or as given) with a concrete witness, next to a `_partial` theorem saying what does hold.

* **C11** the multiplex counter is a `u16` incremented without a check: a debug build panics at the 65536th request and at every later
  one (`C11_checked_stuck`, `C11_checked_reached`), a release build reuses ids (`C11_release_reuse`).
* **C22** mounting with the password that consists of one NUL character and mounting without one are the same, for every server and in every state (`C22_violated`); path and
  password can be recovered from the request in all other cases (`C22_recover`, `C22_password_partial`).
* **C25** search patterns within a certain length range panic in `expect` (`C25_violated_panic`); other over-long names are refused.
* **C27** the buffer size announced by the server is stored but never enforced, because `BytesMut::remaining_mut()` is practically
  infinite (`C27_violated`); the sizes of requests and which calls go beyond the limit: `C27_size_partial`, `C27_exactly`.
  The same for logins: `C27_violated_login`, `C27_login_partial`.
* **C28** path names are sent as UTF-16 even if Unicode was not negotiated and the header says so (`C28_violated`). The user and domain names of the legacy login are, too (`C28_violated_login`). Which calls exactly: `C28_exactly`.
* **C34** an empty block with displacement 0 in a continuation is refused although its place means nothing (`C34_violated`).
* **C36** without Unicode, names in listings are still read as UTF-16 (`C36_violated`), so that no ASCII name is ever
  shown as what it is (`C36_oem`, `C37_oem`).
* **C37** `find_next` refuses a page whose last entry has next-entry offset 0, which is what MS-CIFS prescribes (`C37_violated`, `C37_exactly`, `C37_zero`), so
  listings of more than one page fail against a conforming server.
* **C38** short replies make the parsers panic (`C38_violated`, `C38_challenge`); which ones exactly: `C38_partial`,
  `C38_search_partial`, `C38_challenge`; which exchanges: `C38_login_partial`, `C38_open_partial`, `C38_download_partial`,
  `C38_list_partial`. A name of 32726 to 32760 characters at the end of a page crashes a listing although the server does nothing wrong
  (`C38_violated_name`).
* **C39** with overflow checks, a download that needs more multiplex ids than are left panics (C11): files of four gigabytes cannot be downloaded from any server (`C39_ceiling`,
  `C39_violated`). Without these checks files of any size can (`C39_release`). The same holds of everything that says that calls succeed: claims about services, programs and sessions have
  the condition, in `Ready`, that with overflow checks enough ids are left.
* **C41** a server that answers each read with no data keeps `download` busy forever (`C41_violated`), unless overflow checks
  are compiled in (`C41_checked_partial`).
* **C42** a last chunk longer than asked for is kept (`C42_violated`).
* **C43** when a read fails during `download`, the handle is not closed (`C43_violated`).
* **C47** login succeeds if the last session-setup reply says MORE_PROCESSING_REQUIRED (`C47_violated`).
* **C56** `smb://host:445/share/dir@v1/file` is read with user `host` and password `445/share/dir` (`C56_violated`).
* **C57** the regex is not anchored: `smb://host/C$/dir` resolves to share `C` without a path (`C57_violated`).
* **C61** without overflow checks, multiplex ids are used again after 65536 requests; a late reply to a request that was given up is then taken for the reply to another one
  (`C61_violated`). Before that it is skipped (`C61_late_replies_partial`, and `C61_history_partial` for whole histories with calls given up on the way).
* **C67** a call that is given up or fails in the middle of writing leaves the beginning of a packet on the wire, and the connection can
  still be used: the next call writes behind it (`C67_violated`). Otherwise only whole messages are written (`C67_sent_partial`,
  `C67_login_partial`).
* **C68** a call that is given up in the middle of a reply, or refuses a packet as too big, leaves the rest of the packet to the next call,
  which takes it for packets: the contents of a file can pass for the server's reply (`C68_violated`, `C68_violated_size`). All other
  calls consume whole packets (`C68_call_partial`, `C68_login_partial`, `C68_session_partial`).
* **C75** `Auth` and `Cifs` derive `Debug` (src/ntlm/auth.rs:9, src/lib.rs:26), so that `{:?}` prints the password (`C75_violated`,
  `C75_violated_client`, `C75_violated_verbatim`). Outcomes and the log tell nothing
  about it (`C75_outcome_partial`, `C75_log_partial`). Mounting a share logs the length of the packet, and with it that of the share's password,
  give or take one byte (src/netbios.rs:277; `C75_violated_mount`); no more than the length (`C75_log_mount_partial`). What
  is logged is said in full by `C75_log_lines` and `C75_log_lines_open`.
* **C76** The records of a notification reply may overlap (src/smb/trans.rs:126-147 follows any distance but 0), so that a reply of 48 kB gives
  a list of names of 96 MB (`C76_violated`, quadratic for all sizes up to that). All other results are at most as big as what was received
  (`C76_result_partial`); lists of changes are at most as big as its square (`C76_changes_partial`).
* **C78** Each request reserves as many bytes as the server announced as its maximal buffer (src/lib.rs:296), and nothing limits that number: a
  server that sends 126 bytes makes every later request of the session ask for 4 GiB (`C78_violated`; on a machine that has not got them the
  program is aborted). What is reserved for replies is bounded
  (`C78_received_partial`), and for requests it is exactly the announced number, 1024 before (`C78_requests_partial`).
* **C79** a server that sends further pages for ever keeps `list` busy forever, and lets the list of entries grow without bound
  (`C79_violated`), unless overflow checks are compiled in (`C79_checked_partial`). A search that comes to an end on the server ends
  on the client, within as many rounds as there are entries (`C79_finite_partial`).
* **C80** with a server that ends the further pages of a search as MS-CIFS says (C37), every listing that needs more than one page fails
  (`C80_violated`, `C80_pages`). The positive theorems of C44, C66 and C80 take further pages to be written as `find_next` reads them.
* **C82** a listing that fails after its first page leaves its search open on the server (`C82_violated`); the client has no request that
  closes one. Listings that return entries leave none (`C82_partial`).
* **C84** the client takes the form of the login from the reply to the negotiation, which nothing protects. A third party that replaces this
  one reply gets a legacy response to a challenge of its choice, whatever the server offers (`C84_violated`), and such a response has nothing
  fresh in it (`C84_stale`). The client does not ask for a proof from the server either: one that lets everybody in is accepted
  (`C84_violated_server`). What does hold is that a recorded response is of no use after another challenge (`C84_bound_partial`,
  `C84_replay`, `C84_legacy`, `C84_replay_legacy`).
* **C86** a call of `notify` that is given up (there is nothing to tell, and the program has a time limit) leaves its request waiting at the
  server, since the client has no request that cancels it. The next change is told in the answer to that request, which the client skips
  (`C86_violated`); if each change is answered by itself, the program is told nothing any more (`C86_behind`). What it is told is right and in
  order (`C86_order`), and nothing is lost as long as no call is given up (`C86_complete_partial`).
* **C87** the client does not look at the server's security mode nor at most of its capabilities: it logs in to a server that requires
  signatures, has access by share, or does not understand NT requests and 32-bit statuses (`C87_violated`; each of these alone: `C87_violated_each`). More generally it cannot tell
  servers apart whose greetings agree in buffer size, encoding, form of the login and, without extended security, challenge (`C87_blind`).
  These it keeps to (`C87_kept_partial`).
* **C88** the name in a delete request is a pattern ([MS-CIFS] 2.2.4.7), and the client sends any name as it is: `delete(share, "*")` deletes
  all files at the top of the share (`C88_violated`, `C88_star`). In general it deletes what the name matches (`C88_matches`), which is one file
  if the name has no wildcards (`C88_exact_partial`, `C88_folded_partial`). (C80 is about file systems that take names in delete requests literally.)
* **C89** a `Handle` is two numbers with nothing that ties it to the share or ends its life: `umount` takes the share and leaves its handles,
  `close_ref` leaves the handle that it closes. With a server that reuses numbers, a read through such a handle succeeds and brings the contents
  of another file (`C89_violated`, both ways). Handles that were not closed and whose tree was not unmounted keep their meaning in all programs
  (`C89_partial`).
* **C90** names are written with a NUL behind them and never searched for one. A server that reads strings up to the first NUL hears another call
  (`C90_violated`, for every call with a NUL in its name): deleting `a` NUL `b` deletes `a` and succeeds (`C90_violated_delete`); what comes after the NUL
  in the path of a share is read as the kind of share (`C90_kind`), and in the user name of a login without extended security as the domain
  (`C90_login`). Calls with names without NUL are heard as they were made (`C90_plain_partial`). Names of files to open have a length and are not affected.
* **C91** the names in listings and notifications are taken from the server as they are. Whatever fits a reply, be it empty, `..\x` or a text with NULs, there
  is a server from which the client takes it for the name of a file (`C91_violated`). A program that saves files under such names writes where the
  server wants it to (`C91_astray`). With servers that tell names only there are names only (`C91_service_partial`).
* **C93** a name that is not well-formed UTF-16 (file systems of Windows have them) makes `find_first`, `find_next` and `notify` fail as a whole, so that none of
  the other files on the page, and nothing of the directory with `list`, is shown (`C93_violated`, `C93_violated_next`, `C93_violated_list`,
  `C93_violated_notify`). With text only all is shown (`C93_text_partial`).
* **C95** nothing after the login is signed, in either direction, although the client computes a session key (`_sk` in ntlm/challenge.rs) to do it with and drops it. Somebody on the way who lets the login pass can answer
  all requests after it in the server's place (`C95_violated`, for any service they may pretend, any genuine server and any program); the user is logged in at the genuine server,
  which hears their requests, and is shown what the other one likes. Only parties that re-cut the stream are harmless (`C95_cuts_partial`, `C95_cuts_open_partial`).
* **C99** fetching `smb://host:445/share/dir@v1/file` contacts the host `v1` instead of `host`, whatever the network is like, and tries to log in there as user `host` with the password `445/share/dir`
  (`C99_violated`; it comes from C56). For all URIs that are resolved to their parts, fetching the file works (`C99_fetch_partial`), and an unknown account is refused (`C99_refused_partial`).

Further observations that contradict no listed property but are worth knowing:

* A request that cannot be built still uses up a multiplex id (C60_unbuilt).
* The NTLM AUTHENTICATE message is the short form (no session key, flags or version fields), and the challenge's target descriptors are
  read even if the flags say they are absent.
* A port with non-ASCII digits matches `\d+` but is refused afterwards (C55_fails).

## Per property: model, proof, status

* **C01 TCP segmentation does not matter** (proved) - `World.inbox` is a list of TCP segments; define ~ as 'same concatenation'; prove every M-program built from the transport primitives respects ~ (bisimulation closed under bind and fuel loops), lifted to op histories. Theorems: `C01_anytime`, `C01_all_servers`, `C01_log`, `C01_log_open`, `C01_history`, `C01_open`.
* **C02 Outgoing frames are complete and correctly delimited** (proved) - `writeExactly` over an arbitrary list of accept sizes / failures; induction on the schedule; `Frame.encode` by computation. Theorems: `C02_layout`, `C02_written_completely`, `C02_success_means_complete`, `C02_too_big_refused`.
* **C03 Keep-alives are invisible** (proved) - Induction on the number of keep-alives over the flat-stream lemma of `recv`. Theorems: `C03_program`, `C03_login`, `C03_open`, `C03_operations`, `C03_keepalives_invisible`.
* **C04 Only well-formed session messages are delivered** (proved) - Exact case characterisation of `recv` on the flat stream. Theorems: `C04_delivers_exactly`, `C04_bad_frames`, `C04_too_long`.
* **C05 A cut connection never yields a truncated message** (proved) - Flat-stream lemma: fewer bytes than announced => EOF error. Theorems: `C05_which`, `C05_cut_is_an_error`.
* **C06 NetBIOS session request is always well formed** (proved) - `encodeNetbiosName` on `List Char`; independent half-ASCII decoder in Spec; induction/`omega`. Theorems: `C06_isSessionRequest`, `C06_refused`, `C06_open`, `C06_name`, `C06_request_layout`, `C06_session`.
* **C07 Connection policy** (proved) - `NetBios.open` parameterised by a dial oracle; case analysis. Theorems: `C07_port_fails`, `C07_port`, `C07_direct`, `C07_unreachable`, `C07_fallback`.
* **C08 Receiving always terminates** (proved) - Fuel = bytes available + 1; prove the fuel-exhausted outcome is unreachable. Theorems: `C08_recv`, `C08_collect`, `C08_recv_ends`, `C08_collect_ends`, `C08_call`, `C08_call_ends`, `C08_login`, `C08_login_ends`, `C08_recvMessage_terminates`.
* **C09 Every request carries the right header** (proved) - Request frames stated through field-at-offset functions (`u16At`), for every op. Theorems: `C09_download`, `C09_header`. C09_header is about all operations, C09_download gives the tree ids of the requests of a download; the headers of a login are in C65_headers, the multiplex ids in C10_ids.
* **C10 Multiplex ids are never reused** (proved) - History invariant: mid counter = number of sends; n-th sent frame has mid n-1. Theorems: `C10_program`, `C10_ids`, `C10_all_sent`, `C10_one_attempt`.
* **C11 Multiplex id exhaustion** (partial) - Expected false: overflow panics (checked build) or wraps (release). Prove the negation in both profiles, plus the partial statement C10. Theorems: `C11_checked_stuck`, `C11_checked_reached`, `C11_release_reuse`, `C11_window_partial`. The claim fails after 65535 requests: C11_checked_stuck, C11_checked_reached and C11_release_reuse exhibit the counter overflow (panic in a checked build, id reuse otherwise). C11_window_partial holds for all histories short of that.
* **C12 A call gets the reply to its own request** (proved) - `recv` on stream = foreign replies ++ own reply; induction on the foreign list. Theorems: `C12_program`, `C12_login`, `C12_own_reply`, `C12_foreign_replies`.
* **C13 Only genuine replies are accepted** (proved) - Exact characterisation of `Info.parse` success. Theorems: `C13_accepted_iff`, `C13_rejected`, `C13_call`.
* **C14 Reply type is checked** (proved) - Case analysis of `recv`. Theorems: `C14_any`, `C14_login_any`, `C14_unexpected`. C14_unexpected is about operations that make one request and the first reply to it. C14_any is about all calls and all replies to all of their requests: it says which reply an error of this kind is about. That such a reply always leads to the error follows from C15_all_granted and, with the exact outcome, from C71_call, C71_download and C71_list.
* **C15 Server errors are reported, never swallowed** (proved) - Case analysis of `recv`, lifted to all ops. Theorems: `C15_any`, `C15_all_granted`, `C15_login_any`, `C15_never_success`, `C15_login_never_success`, `C15_status`, `C15_success`. C15_status and C15_success are about operations that make one request and the first reply to it; C15_any and C15_all_granted about all calls and all replies to all of their requests. The exact outcome of each step of a download or listing is in C71_download and C71_list.
* **C16 Status codes survive** (proved) - Finite table of statuses by cases + default branch. Theorems: `C16_roundtrip`, `C16_injective`, `C16_named`, `C16_unnamed`, `C16_success`.
* **C17 Header round trip** (proved) - LE codec round-trip lemmas. Theorems: `C17_read`, `C17_roundtrip`, `C17_mask`.
* **C18 Paths reach the server unaltered up to the separator** (proved) - UTF-16 codec theorem + field-at-offset of each request. Theorems: `C18_path`, `C21_openfile`, `C21_opendir`, `C21_download`, `C22_mount`, `C23_delete`, `C23_rmdir`, `C24_find_first`.
* **C19 Request bodies are self-consistent** (proved) - Layout predicate over the frame; every op. Theorems: `C19_consistent`, `C19_login`.
* **C20 Read requests name the right position** (proved) - u64 split/recombine; field-at-offset. Theorems: `C20_read`.
* **C21 Opening is read-only and non-creating** (proved) - Field-at-offset, mask statements for all paths. Theorems: `C21_openfile`, `C21_opendir`, `C21_download`.
* **C22 Mount request carries password and path** (partial) - Independent decoder of the tree-connect body in Spec; decode(encode)=id. Theorems: `C22_mount_open`, `C22_mount`, `C22_recover`, `C22_password_partial`, `C22_violated`. The code violates the last part: C22_violated (one NUL character as password gives the request of the empty password). The layout of the request is proved for all passwords and paths (C22_mount, C22_mount_open), the path can always be recovered (C22_recover), the password in all other cases (C22_password_partial).
* **C23 Close, unmount, delete and rmdir address exactly what was asked** (proved) - Field-at-offset. Theorems: `C23_close`, `C23_umount`, `C23_delete`, `C23_rmdir`.
* **C24 Transaction requests point at their own payload** (proved) - Slice statements `frame[off..off+cnt] = payload`. Theorems: `C24_notify_all`, `C24_find_first`, `C24_find_next`, `C24_list`, `C24_notify`.
* **C25 Over-long names are refused, not truncated and not a crash** (partial) - Exact trichotomy per op (ok / error / panic). Expected false for find_first/find_next (panic window); negation + exact window + partial. Theorems: `C25_negotiate`, `C25_authenticate`, `C25_classic`, `C25_sent`, `C25_refused`, `C25_violated_panic`, `C25_partial`. Fails for search patterns in a certain length range: C25_violated_panic shows the panic. C25_partial covers everything else.
* **C26 The transport never refuses a request the protocol layer built** (proved) - Length bound for every produced body. Theorems: `C26_fits`, `C26_never_refused`, `C26_sent`.
* **C27 The server's negotiated buffer size is respected** (partial) - Expected false (`remaining_mut` of a growable buffer is practically infinite): negation with a witness. Theorems: `C27_login_partial`, `C27_violated_login`, `C27_violated`, `C27_partial`, `C27_size_partial`, `C27_exactly`, `C27_nameless`. The negotiated buffer size is not enforced: C27_violated is the witness, C27_partial gives the bound that does hold. C27_login_partial gives the sizes of the requests of a login, and C27_violated_login a login whose second request is longer than what the server accepts.
* **C28 String encoding agrees with the negotiated flag** (partial) - Expected false for most ops when Unicode is not negotiated: negation; partial for mount. Theorems: `C28_violated_login`, `C28_violated`, `C28_partial`, `C28_names_partial`, `C28_exactly`. Path names are always sent as UTF-16 even when Unicode was not negotiated: C28_violated. C28_exactly: for non-empty ASCII names the encoding is the announced one exactly if Unicode was negotiated or the call is mount.
* **C29 Read returns exactly the server's bytes** (proved) - Spec encoder for read replies; decode(encode)=id; error branch characterised. Theorems: `C29_read`, `C29_mismatch`, `C29_only`.
* **C30 Open reply decoding** (proved) - Spec encoder; decode(encode)=id. Theorems: `C30_open`, `C30_directory`, `C30_unique`, `C30_only`.
* **C31 Mount reply decoding** (proved) - Spec encoder with both encodings. Theorems: `C31_only`, `C31_mount`, `C31_unique`.
* **C32 Negotiation and session-setup reply decoding** (proved) - Spec encoders. Theorems: `C32_only_negotiate`, `C32_only_session`, `C32_negotiate`, `C32_refused`, `C32_session`.
* **C33 Change notifications are complete and in order** (proved) - Spec encoder for record lists with arbitrary padding; induction; termination by fuel bound. Theorems: `C33_notify`, `C33_only`, `C33_all`, `C33_unique`, `C33_ends`.
* **C34 Split transaction replies are reassembled** (partial) - Permutation-invariance of the collector; induction on fragments sorted by displacement. Theorems: `C34_partial`, `C34_order_partial`, `C34_permuted`, `C34_violated`. The code violates the property (C34_violated): a message that brings nothing of one block and gives 0 as its place is refused, although the place of an empty block means nothing. C34_partial covers all cuts and orders for messages that place both blocks in their data bytes.
* **C35 Inconsistent fragments are rejected** (proved) - Soundness of `Collector.get`: tiling predicate. Theorems: `C35_success`, `C35_unique`, `C35_displacement`, `C35_error`.
* **C36 Directory entries are decoded completely and in order** (partial) - Spec encoder for entry lists; induction. Theorems: `C36_partial`, `C36_count`, `C36_only`, `C36_unique`, `C36_all`, `C36_violated`, `C36_oem`. The code violates the property in sessions without Unicode (C36_violated): names are always read as UTF-16. C36_oem: in such a session no entry of any page with ASCII names gets its right name. The other theorems are for Unicode names.
* **C37 Continuation pages are decoded like first pages** (partial) - Expected false (terminal next-offset 0 is refused): negation for every conforming non-empty page; partial for lists without terminal zero. Theorems: `C37_partial`, `C37_measured`, `C37_count`, `C37_exactly`, `C37_same`, `C37_all`, `C37_zero`, `C37_violated`, `C37_oem`, `C37_violated_list`. The code violates the property (C37_violated): find_next refuses a list whose last distance is 0. Proved: C37_partial (the lists without a distance of 0 are shown), C37_exactly (all other conforming lists are refused), C37_zero (these are all lists but the empty one, if they are written as the protocol says), C37_violated_list (list fails with such a page), C37_oem (in a session without Unicode no entry gets its right name, as in C36).
* **C38 Hostile replies cannot crash the client** (partial) - Expected false: for each parser an exact panic-domain theorem + witnesses. Theorems: `C38_login_partial`, `C38_open_partial`, `C38_download_partial`, `C38_list_partial`, `C38_violated_name`, `C38_challenge`, `C38_partial`, `C38_search_partial`, `C38_header`, `C38_status`, `C38_violated`. The code violates the property (C38_violated): short replies make it panic. C38_partial and C38_search_partial say exactly which replies do, for every operation with one request; C38_login_partial, C38_open_partial, C38_download_partial and C38_list_partial say exactly which exchanges crash a login, a download and a listing. C38_violated_name: even a server that does nothing wrong crashes a listing with a name of 32726 to 32760 characters.
* **C39 Download returns the whole file** (partial) - Interactive server oracle `react`; conformance predicate; induction on remaining bytes. Theorems: `C39_ceiling`, `C39_release`, `C39_violated`, `C39_content_partial`. Proved for builds without overflow checks, for files of any size (C39_release). With overflow checks the multiplex ids limit what can be downloaded (C39_ceiling), so that the property is violated for files of four gigabytes (C39_violated, a consequence of C11); C39_content_partial holds as long as ids are left.
* **C40 Download's reads are contiguous** (proved) - Trace of the download loop; induction on fuel. Theorems: `C40_course`, `C40_offsets`, `C40_result`, `C40_unique`.
* **C41 Download terminates** (partial) - Expected false (empty chunks): negation for all fuel; partial: terminates if every chunk is non-empty. Theorems: `C41_budget`, `C41_partial`, `C41_violated`, `C41_checked_partial`. The code violates the property (C41_violated): a server that answers every read with an empty chunk keeps the download reading forever (in a build without overflow checks). C41_partial: a download that is still reading after more rounds than the file has bytes got an empty chunk. C41_budget: the iteration budget is only a device of the model. C41_checked_partial: with overflow checks every download ends, after at most 65535 requests. That each single request ends is C08.
* **C42 Download returns exactly the announced size** (partial) - Expected false (over-long last chunk): negation; partial. Theorems: `C42_partial`, `C42_violated`. The code violates the property (C42_violated): a last chunk that is longer than asked for is kept whole. C42_partial: the data has the announced size, or only the last chunk reaches beyond it.
* **C43 Download never leaks a handle** (partial) - Expected false (error during read): negation; partial for success path. Theorems: `C43_partial`, `C43_violated`. The code violates the property (C43_violated): when a read fails, no close request is sent. C43_partial: a download that returns sends the close request exactly if it got all of the file.
* **C44 Listing concatenates all pages** (proved) - Induction on the number of pages; trace of continuation requests. Theorems: `C44_complete`, `C44_course`, `C44_requests`, `C44_result`, `C44_unique`. A further page is what find_next reads as one; lists whose last distance is 0 are none (see C37 and C80_pages). In a build with overflow checks, as long as multiplex ids are left (C11, C39_ceiling); without these checks there is no such limit.
* **C45 Listing never hits its internal unwrap** (proved) - Parser guarantee: not end => entries non-empty; loop invariant result non-empty. Theorems: `C45_unwrap`.
* **C46 Login flow follows the negotiated security** (proved) - `open` as M-program, case analysis; uid invariant over histories; what a fresh client begins with, and the default credentials, in `Props/Fresh`. Theorems: `C46_open`, `C46_opening`, `C46_flow`, `C46_login`, `C46_session`.
* **C47 Login succeeds only if the server accepted it** (partial) - Expected false (MORE_PROCESSING accepted as final): negation; partial. Theorems: `C47_partial`, `C47_violated`. The claim fails: C47_violated is a login whose last reply says MORE_PROCESSING_REQUIRED and which still succeeds. C47_partial: the last status is SUCCESS or MORE_PROCESSING_REQUIRED.
* **C48 NTLMv2 response verifies** (proved) - Hash functions are parameters; independent verifier in Spec. Theorems: `C48_open`, `C48_response`, `C48_login`, `C48_capitals`, `C48_sharp`.
* **C49 NTLM messages are self-describing** (proved) - Packet builder invariant: descriptor i delimits payload i. Theorems: `C49_login`, `C49_negotiate`, `C49_authenticate`, `C49_parts`, `C49_forms`, `C49_form_used`, `C49_calls`.
* **C50 NTLM challenge decoding** (proved) - Spec encoder with arbitrary placements. Theorems: `C50_exact`, `C50_decode`, `C50_unique`.
* **C51 The password never travels in clear during login** (proved) - Relational (two-run) theorem: equal NT hash, or equal answers to all challenges => equal runs; after login, equal runs whatever the credentials. Theorems: `C51_without`, `C51_only_answers`, `C51_afterwards`, `C51_only_the_hash`.
* **C52 Legacy response construction** (proved) - Bit-level characterisation of `expandDesKey`; DES a parameter. Theorems: `C52_key`, `C52_key_unique`, `C52_response`, `C52_response_exactly`, `C52_open`, `C52_login`.
* **C53 Timestamps are converted faithfully** (proved) - Nat/Int arithmetic over all u64. Theorems: `C53_decode`, `C53_monotone`, `C53_encode`, `C53_roundtrip`, `C53_roundtrip_decode`.
* **C54 Text codecs are lossless and strict** (proved) - Induction on strings; converse by induction on bytes. Theorems: `C54_utf16`, `C54_utf16_strict`, `C54_utf16_even`, `C54_utf8`, `C54_utf8_strict`, `C54_utf8_standard`, `C54_utf16_definition`, `C54_utf16_terminated`, `C54_utf8_terminated`, `C54_unterminated`.
* **C55 URI resolution is sound** (proved) - Backtracking list-of-successes regex semantics; independent grammar in Spec; soundness and completeness. Theorems: `C55_resolves`, `C55_sound`, `C55_fails`, `C55_ascii`.
* **C56 URI resolution inverts formatting** (partial) - Compute the priority match of a formatted configuration; expected false for '@' in the path with a port and no user: negation + partial. Theorems: `C56_partial`, `C56_violated`. The code violates the property (C56_violated): smb://host:445/share/dir@v1/file is read with user host and password 445/share/dir. C56_partial says exactly for which configurations resolving inverts formatting. The Unicode classes \w and \d are parameters fixed on ASCII only.
* **C57 The whole URI is interpreted** (partial) - Expected false (regex not anchored, `$`-shares, newlines): negation with witnesses. Theorems: `C57_partial`, `C57_violated`. The code violates the property (C57_violated): smb://host/C$/dir resolves to share C without a path. C57_partial says what can be dropped.
* **C58 Path sanitizing** (proved) - Induction on strings. Theorems: `C58_pointwise`, `C58_length`, `C58_no_slash`, `C58_idempotent`, `C58_fixed`.
* **C59 Operations send only their own commands** (proved) - History invariant over the bytes written. Theorems: `C59_program`, `C59_own_commands`, `C59_modifying`.
* **C60 A failed request construction has no effect on the wire** (proved) - Case analysis; state equality up to mid; simulation for later histories. Theorems: `C60_nothing_written`, `C60_unbuilt`, `C60_overlong`.
* **C61 Abandoned calls do not poison the connection** (partial) - Abandon = send without recv; C12 with those frames as the foreign ones. Theorems: `C61_program_partial`, `C61_history_partial`, `C61_late_replies_partial`, `C61_violated`. Proved as long as the multiplex ids do not wrap around (C61_late_replies_partial; C61_history_partial for late replies to calls given up on the way, arriving at any time). In a build without overflow checks they do after 65536 requests, and a late reply to the first one is taken for the reply to the new one (C61_violated, a consequence of C11).
* **C62 Session state is stable** (proved) - History invariant. Theorems: `C62_program`, `C62_stable`.
* **C63 Status names follow the protocol** (proved) - Independent table of codes and names; both directions by enumeration, unnamed codes by uniqueness of hexadecimal notation. Theorems: `C63_any`, `C63_login_any`, `C63_text`, `C63_server_error`.
* **C64 Error texts tell errors apart** (proved) - The literal beginnings differ pairwise; the rest is decoded number by number. Theorems: `C64_any`, `C64_login_any`, `C64_injective`, `C64_commands`, `C64_unexpected`, `C64_login`, `C64_lines`, `C64_line_texts`.
* **C65 Every packet of a login has a complete header** (proved) - from the flow of a login (as C46), with the header fields of each packet; `C65_open` with the values `open` begins with. Theorems: `C65_open`, `C65_headers`.
* **C66 The client is a faithful stub for a file service** (proved) - Refinement: a service is any relation between states, calls and answers; a simulation step for each operation (request encoders, transport, reply decoders), then induction on programs. Unambiguity of requests gives a server for every service. Theorems: `C66_operation`, `C66_program`, `C66_unambiguous`, `C66_possible`, `C66_services`. Further pages of a search are offered in the format that find_next reads, without a distance of 0 (see C37; C80_pages says what happens otherwise). In a build with overflow checks, as long as multiplex ids are left (C11, C39_ceiling); without these checks there is no such limit.
* **C67 The server can read what the client writes** (partial) - A relation between outcome, state before and state after that composes along successful steps, carried through every operation; induction on histories. Theorems: `C67_sent_partial`, `C67_login_partial`, `C67_violated`. The code violates the property (C67_violated): an interrupted write leaves part of a packet on the wire and the connection stays usable. The partial theorems say what holds: whole messages, plus at most the beginning of one if the call was given up or failed while writing.
* **C68 Every call consumes whole packets** (partial) - The same method; the two parts of the relation are what was consumed if there was no trouble, and that whole packets stay whole. Theorems: `C68_call_partial`, `C68_login_partial`, `C68_session_partial`, `C68_violated`, `C68_violated_size`. The code violates the property (C68_violated, C68_violated_size): after a call given up in the middle of a packet, or a packet refused as too big, the next call reads from the middle of a packet. The partial theorems: every call that does not report trouble with the connection consumes whole packets, and so do all calls if packets arrive whole.
* **C69 A login succeeds with the right password, and not with a wrong one** (proved) - Composition: each half of the login is one request and its reply against an abstract server with accounts, whose check is the independent specification of C48 and C52; the check reads back what the client wrote because messages are read unambiguously. A server is constructed for the existence claim. `Props/GateOpen` has it for `open`, with C07. Theorems: `C69_login`, `C69_right`, `C69_wrong`, `C69_program`, `C69_possible`, `C69_open`, `C69_open_right`, `C69_open_refused`, `C69_open_wrong`.
* **C70 Nothing is made up** (proved) - The converse of C66: any server is a source of answers (what it says in reply to a request, by the wire formats of C29 to C37), and each conclusive outcome is a behaviour of that source. Induction over the loops and over programs; that an answer is unambiguous follows from the uniqueness theorems of the formats. Theorems: `C70_operation`, `C70_program`, `C70_unambiguous`, `C70_mute`.
* **C71 Every outcome has its cause** (proved) - The conditions are relations on bytes that say nothing about the client's functions. Each is shown to lead to its outcome, and together they are shown to cover all cases (case analysis for one reply, induction over the stream and over the pieces received); the equivalence follows because the model is a function. Inductions over the loops reduce downloads and listings to calls. Theorems: `C71_call`, `C71_download`, `C71_list`.
* **C72 Every outcome of opening a connection has its cause** (proved) - As C71, along the steps of a login: for the packets actually sent, the relation has the actual outcome (case analysis of each step), and for given packets it has at most one outcome. Theorems: `C72_login`, `C72_open`.
* **C73 Credentials play no part after the login** (proved) - Two runs side by side (`Twin`): related states give equal outcomes and related states; closed under sequencing, so it is shown for sending and receiving and lifted to every loop and call. Theorems: `C73_program`, `C73_call`, `C73_calls`.
* **C74 Debug and release builds behave alike** (proved) - The same relation, with equality of states and one way out: the first run has crashed with the counter at its end (or, in a login, with a bad clock). A login makes at most three requests (`Upto`), so the counter cannot be the reason there. Theorems: `C74_program`, `C74_call`, `C74_calls`, `C74_login`, `C74_open`.
* **C75 The client does not tell its password** (partial) - The same relation as for C73 on logins: the two clients differ in the password, the bytes unread and the number of bytes written are the same. Both kinds of response have a length that does not depend on the password. For the violation: `{:?}` of a string can be read back (`escape_inj`), whatever follows. Theorems: `C75_log_only`, `C75_log_only_open`, `C75_log_lines`, `C75_log_lines_open`, `C75_log_partial`, `C75_log_mount_partial`, `C75_violated_mount`, `C75_outcome_partial`, `C75_violated`, `C75_violated_client`, `C75_violated_verbatim`. The code violates the property (C75_violated, C75_violated_client, C75_violated_verbatim): the derived Debug of Auth and Cifs shows the password. Mounting a share logs a line that tells the length of the share's password up to one byte (C75_violated_mount). The partial theorems: the outcome of opening a connection, the ports tried, the number of bytes sent, the lines logged then and while any program runs afterwards are the same for any two passwords, if the server says the same things (C75_outcome_partial, C75_log_partial); so are outcome and log of a mount for two share passwords of the same length (C75_log_mount_partial). C75_log_lines and C75_log_lines_open say which lines are logged: they are determined by the kinds and lengths of the packets, in order, the ports tried, and what a notification is asked for. C75_log_only and C75_log_only_open show that the functions with a log do what those without do.
* **C76 Results are no bigger than what was received for them** (partial) - A potential argument: `Paid` says how many bytes were received between two states; it adds up over successful steps, so each loop carries the size of what it has gathered. For the violation: records that give all the following ones as their name, for every `n`. Theorems: `C76_result_partial`, `C76_changes_partial`, `C76_violated`. The code violates the property (C76_violated): the records of a notification reply may overlap, so that a reply of 12 n + 76 bytes gives a list of size 6 n^2 + 6 n. The partial theorems: all other results are at most as big as what was received; lists of changes are at most as big as its square, and have at most as many entries as bytes were received.
* **C77 One request at a time** (proved) - `Turns` is a conversation of rounds; commands and transactions are one round each (`command_reply`, `transact2_srv`), and `runOp_rounds`, `setup_rounds` lift any relation that composes along successful rounds to all calls. The bound adds the sizes of the rounds. Theorems: `C77_program`, `C77_call`, `C77_login`, `C77_session`, `C77_calls`.
* **C78 Memory reserved in advance is bounded** (partial) - `Model/Alloc` has the sizes given to `with_capacity`, tied to the functions that use them by equations (`C78_sizes_partial`); bounds for what is received by inversion, the size for requests from the login theorem of C46 and the stability of the session (C62); counterexample: a login that announces a buffer of 4 GiB. Theorems: `C78_sizes_partial`, `C78_received_partial`, `C78_requests_partial`, `C78_violated`. The code violates the property (C78_violated): requests reserve as many bytes as the server announced in its negotiate reply, up to 4 GiB. The partial theorems: what is reserved for replies is bounded; for requests it is exactly the announced number throughout the session.
* **C79 Listing terminates** (partial) - as for C41: a listing that is still running has received as many pages as rounds, none of them empty (from the course of C44); with overflow checks the multiplex ids run out; counterexample: a server that sends the same page again and again, by induction on the budget. Theorems: `C79_budget`, `C79_partial`, `C79_finite_partial`, `C79_checked_partial`, `C79_violated`. The code violates the property (C79_violated): a server that never marks the last page keeps the listing going forever (in a build without overflow checks). C79_partial: a listing still running after k rounds has received k + 1 pages, none of them empty. C79_finite_partial: so it ends within n rounds if the server sends at most n entries. C79_checked_partial: with overflow checks every listing ends. C79_budget: the iteration budget is only a device of the model.
* **C80 Access to a remote file system** (partial) - `Spec/Disk` has the file system as a service in the sense of C66, what its user expects, and a calculus for programs (`Prog.Ensures`); induction over the steps of downloads and listings (`fetches_file`, `continues_search`) shows that the behaviours of C66 are the expected ones. `C80_session_partial` starts outside the door of C69, with a new connection; `C80_open_partial` with one that is opened in any way C07 knows. `C80_services` gives a server for every such file system, `tour_ensures` and `prune_ensures` are about example programs. `Props/Standard` is about servers that end lists with a distance of 0: which listings fail, that there are such servers, and the counterexample. Theorems: `C80_operation_partial`, `C80_program_partial`, `C80_session_partial`, `C80_services`, `C80_open_partial`, `C80_pages`, `C80_standard`, `C80_violated`. The code violates the property (C80_violated): with a server that ends further pages of a search by a distance of 0, as MS-CIFS has it, every listing that needs more than one page fails (C80_pages; the cause is that of C37). The partial theorems are about servers whose further pages are written as find_next reads them.
* **C81 Flags mean what the documents say** (proved) - `Model/Flags` has all constants with their names, `Spec/Flags` the tables of the documents; they are compared by computation. Results: from C30, C31 and C36, since the masks contain every declared bit. Theorems: `C81_tables`, `C81_used`, `C81_apart`, `C81_handle`, `C81_kinds`, `C81_share`, `C81_entry`, `C81_listed`, `C81_first`.
* **C82 Listing leaves no search open** (partial) - induction over the course of C44: every request has the flag that closes the search with its last page, and none has one that closes it earlier; counterexample: a server that refuses to send the second page. Theorems: `C82_partial`, `C82_violated`. The code violates the property (C82_violated): a listing that fails after its first page leaves the search open; there is no request in the client that closes one. C82_partial: a listing that returns entries got a last page with a request that makes the server close the search; no request of any listing closes it otherwise.
* **C83 The client can take what it asks for** (proved) - the limits are read from the bytes of the request; with C25's layouts they bound the answer, for which `Props/Store` builds replies (search results in two pieces, since they may not fit one message), and C66's `answer_serves` gives the result. Theorems: `C83_taken`, `C83_padding`, `C83_most`, `C83_login`.
* **C84 A login is good for one challenge, and nobody can weaken it** (partial) - from C48 and C52: equal proofs mean equal keyed hashes, and server challenge and client challenge are read off by their lengths; the cipher is shown to be invertible (`Lemmas/Des`: permutations, rounds with the keys reversed); counterexamples, for all servers: a third party that only replaces the reply to the negotiation, and a server that lets everybody in. Theorems: `C84_bound_partial`, `C84_replay`, `C84_stale`, `C84_legacy`, `C84_cipher`, `C84_replay_legacy`, `C84_violated`, `C84_violated_server`. The code violates the second half of the property: C84_violated (for every server, a third party that replaces only the reply to the negotiation gets a legacy response to its own challenge) and C84_violated_server (a server that lets everybody in is accepted). The first half holds: C84_bound_partial and C84_replay (extended security), C84_legacy, C84_cipher and C84_replay_legacy (legacy response; DES as modelled is proved injective).
* **C85 A download is a snapshot** (proved) - the server's file has a content in every state, which others may change with every request unless the handle's share access keeps them out (`Spec/Shared`); after opening, the server is a `FileServer` of C39 for the content of that moment; reads at any offsets by induction over their list, as the content stays the same while the file is held; servers with arbitrary writers are constructed, and a server that ignores the share access shows that it is needed. Theorems: `C85_snapshot`, `C85_possible`, `C85_needed`, `C85_reads`. In a build with overflow checks, as long as multiplex ids are left (C11, C39_ceiling); without these checks there is no such limit.
* **C86 Watching misses no change** (partial) - the server keeps the requests that wait and all changes it has told (`Spec/Watch`); one call takes the answer to its own request or nothing (from C33 and C61's skipping), then induction over the calls: the n-th answer belongs to the n-th call. Counterexample: one call is given up, the server's next answer is for it. Theorems: `C86_answers`, `C86_order`, `C86_complete_partial`, `C86_behind`, `C86_possible`, `C86_violated`. The code violates this: C86_violated (a call that is given up leaves its request at the server; the changes in the answer to it are lost), C86_behind (with a server that answers change by change, nothing is ever told again). Proved: C86_answers (which answer belongs to which call), C86_order (what is told is right, in order, told once), C86_complete_partial (nothing is lost if no call is given up). Assumes that the 16-bit multiplex ids do not wrap around during the calls.
* **C87 The client logs in only on terms it can keep** (partial) - a relational theorem: two servers whose greetings agree in the four fields used and that do the same afterwards give equal runs (negotiation stepped by hand, then the simulation of C01); the violation is this theorem applied to a server that lets everybody in and to one that announces demands the client cannot meet. Theorems: `C87_blind`, `C87_violated`, `C87_violated_each`, `C87_kept_partial`. The code violates this: C87_violated (a login succeeds on any terms, such as required signatures), C87_violated_each (each of the five terms alone), C87_blind (only four fields of the greeting have any influence on the login and the session). Proved: C87_kept_partial (dialect, form, encoding, buffer size and length of the challenge are as announced).
* **C88 Deleting removes only the file that was named** (partial) - a service that deletes whatever fits the pattern (`Spec/Wild`), for any way of matching in which plain names match themselves; C66 says what the client makes of it; names without wildcards are exact, `*` is the counterexample. Theorems: `C88_matches`, `C88_exact_partial`, `C88_folded_partial`, `C88_star`, `C88_possible`, `C88_violated`. The code violates this: C88_violated (delete(share, "*") succeeds and deletes everything at the top of the share, with every server that matches names as the protocol says). Proved: C88_matches (exactly what the name matches is deleted), C88_exact_partial (with names without wildcards, exactly the named file), C88_folded_partial (the same for servers that do not tell certain characters of a name apart, such as small letters from capital ones), C88_possible (there are such servers). The names of directories are compared as they are.
* **C89 A handle keeps meaning the file it was opened for** (partial) - a service that gives free numbers and may reuse freed ones (`Spec/Lends`); that a number denotes the same file is an invariant of all programs that neither close it nor unmount its tree, by induction over the program on top of C66; a service with one number for each is the counterexample, for handles that outlive their share and for handles closed by reference. Theorems: `C89_partial`, `C89_possible`, `C89_lends`, `C89_violated`. The code violates this: C89_violated (a handle whose share was unmounted, or that was closed by reference, reads from another file once the server reuses its number). Proved: C89_partial (all programs that do neither), C89_possible and C89_lends (there are such servers, and they give numbers as the protocol says).
* **C90 Servers read the names that the user gave** (partial) - a second reading of the same packets (`Spec/Heard`): strings end at the first NUL; the call that is heard is the call that was made with its name cut there, which is unique; so a server that reads like this looks like one whose service cuts all names, and C66 applies. Theorems: `C90_heard`, `C90_plain_partial`, `C90_violated`, `C90_kind`, `C90_login`, `C90_service`, `C90_possible`, `C90_violated_delete`. The code violates this: C90_violated (every call with a NUL in its name is heard as another call), C90_violated_delete (another file is deleted), C90_kind and C90_login (what comes after the NUL is read as the kind of share, or as the domain). Proved: C90_heard (exactly what is heard), C90_plain_partial (names without NUL), C90_service and C90_possible (what such servers look like, and that there are such servers).
* **C91 Names in listings are names** (partial) - the names in what an operation brings (`Spec/Names`); by induction over the behaviours of C66, they are names if the service tells names only; for anything that is no name there is a service, hence a server, that has it listed. Theorems: `C91_astray`, `C91_service_partial`, `C91_files_partial`, `C91_violated`. The code violates this: C91_violated (anything that is no name and fits a reply is taken for a name, in listings and notifications), C91_astray (so a program that copies a directory is led out of it). Proved: C91_service_partial (services that tell names only), C91_files_partial (file systems with names only).
* **C92 Directories can be copied** (proved) - the copying program, as a `Prog` over the client's operations (`Spec/Copy`); programs with the requests counted (`EnsuresIn`), by induction on top of C80; induction over the depth, and over the entries of a directory; with the opening of the connection by C69 (`C92_session`, `C92_open`). That a careful program stays below the directory is an induction over the program with all outcomes. Theorems: `C92_copy`, `C92_session`, `C92_safe`, `C92_brings`, `C92_open`. In a build with overflow checks, as long as multiplex ids are left (C11, C39_ceiling); without these checks there is no such limit.
* **C93 One strange name does not spoil a listing** (partial) - pages and notifications with names of any bytes (`Spec/Strange`), without saying what the names mean; by induction over the page, the parser's outcome (from C36, C37, C33) is neither a success nor a panic if one name is no text. Theorems: `C93_text_partial`, `C93_text_next_partial`, `C93_violated`, `C93_violated_next`, `C93_violated_list`, `C93_text_notify_partial`, `C93_violated_notify`. The code violates this: C93_violated (a page with a name that is no text makes find_first fail, whatever else is on it), C93_violated_next, C93_violated_list and C93_violated_notify (the same for further pages, for list and for notifications). Proved: C93_text_partial, C93_text_next_partial and C93_text_notify_partial (first pages, further pages and notifications in which all names are text are shown).
* **C94 A lost connection stays lost** (proved) - `Spec/Dead` says when a connection is lost. On the flat stream, a reader that ends with an I/O error has read everything (`Drains`, closed under sequencing), and on the empty stream every reader fails; calls begin with one request and one reply, sequences of calls by induction. The same closure gives logins, and the session request is one packet and one answer (`C94_open`). Theorems: `C94_call`, `C94_noticed`, `C94_stays`, `C94_login`, `C94_login_noticed`, `C94_open`.
* **C95 Changes on the way are noticed** (partial) - a party between client and server is a server transformer (`Spec/Between`). One that leaves logins alone keeps the door of the server (`Doorkeeper`) and replaces the service behind it (`Implements`), so C69 and C66 say what a user sees. Parties that only cut the stream: C01. Theorems: `C95_program_partial`, `C95_cuts_open_partial`, `C95_cuts_partial`, `C95_violated`. The code violates this: C95_violated (somebody on the way who lets the login pass answers all later requests in the place of the server, for any service). Proved: C95_cuts_open_partial and C95_cuts_partial (a party that only cuts the stream into other pieces changes nothing).
* **C96 The server's numbers mean nothing to the client** (proved) - renamings of the numbers act on calls, answers, operations and outcomes (`Spec/Numbers`). On services, by induction over what `Behaves` says of downloads and listings; then C66 for both servers, and C69 where the sessions begin with logins. Theorems: `C96_operation`, `C96_program`, `C96_possible`, `C96_login`. In a build with overflow checks, as long as multiplex ids are left (C11, C39_ceiling); without these checks there is no such limit.
* **C97 What files contain has no influence on what the client does** (proved) - two streams of whole packets are related if they differ in the data of replies to read requests only (`Spec/Contents`). The parsers are parametric in these bytes; a simulation with a relation between values carries this through all calls (`Lemmas/Contents`). Theorems: `C97_login`, `C97_call`, `C97_mapped`, `C97_history`, `C97_program`, `C97_log`, `C97_log_program`.
* **C98 A call that was given up is carried out once, and its answer goes nowhere else** (proved) - servers that answer at once, or are silent for now, or stop between two replies to a search, and that may send anything under ids of earlier requests (`Spec/Late`). Unread packets are foreign to all ids from the next one on, which is an invariant as long as ids do not wrap; then as for C66. Servers behind a device that holds answers back, or passes on only as many packets as it likes, are shown to be of this kind. `C98_login` puts the login in front: the program runs at a guarded server, with the right password, and the device waits behind the door. Theorems: `C98_operation`, `C98_program`, `C98_prompt`, `C98_delayed`, `C98_metered`, `C98_login`.
* **C99 A file can be fetched by its URI** (partial) - the whole way from the URI to the contents (`Spec/Fetch`): C56 for the URI, C07 and C06 for reaching the host, C69 for the login, C80 for the mount and the download. False for the URIs for which C56 is false. Theorems: `C99_fetch_partial`, `C99_refused_partial`, `C99_violated`, `C99_wrong_partial`. The code violates this: C99_violated (for a URI with a port and an @ in its path, another host is contacted, under an account made of parts of the URI). Proved: C99_fetch_partial (for all other URIs the right host is contacted and the outcome is the contents of the file, or why there are none), C99_refused_partial (an account that does not exist) and C99_wrong_partial (a wrong password).

## Axioms per theorem

* none: `C16_named`, `C49_form_used`, `C64_commands`, `C81_tables`
* propext: `C16_roundtrip`, `C16_injective`, `C16_unnamed`, `C16_success`, `C37_measured`, `C40_offsets`, `C40_result`, `C44_result`, `C49_calls`, `C58_pointwise`, `C58_length`, `C98_prompt`
* propext, Quot.sound: `C01_anytime`, `C01_all_servers`, `C01_log`, `C02_layout`, `C02_written_completely`, `C02_success_means_complete`, `C02_too_big_refused`, `C08_recv_ends`, `C08_collect_ends`, `C08_call_ends`, `C10_one_attempt`, `C11_checked_stuck`, `C11_checked_reached`, `C11_release_reuse`, `C17_mask`, `C21_openfile`, `C21_opendir`, `C21_download`, `C23_delete`, `C23_rmdir`, `C24_find_first`, `C22_violated`, `C23_close`, `C23_umount`, `C24_notify_all`, `C24_find_next`, `C24_list`, `C24_notify`, `C25_violated_panic`, `C26_fits`, `C26_never_refused`, `C27_violated`, `C30_unique`, `C33_all`, `C34_permuted`, `C35_displacement`, `C36_all`, `C37_all`, `C37_zero`, `C41_budget`, `C42_partial`, `C44_requests`, `C52_key_unique`, `C53_decode`, `C53_monotone`, `C53_encode`, `C53_roundtrip`, `C53_roundtrip_decode`, `C54_utf8_standard`, `C54_utf16_definition`, `C55_resolves`, `C55_sound`, `C55_ascii`, `C58_no_slash`, `C58_idempotent`, `C58_fixed`, `C60_unbuilt`, `C62_program`, `C62_stable`, `C67_sent_partial`, `C73_program`, `C73_call`, `C73_calls`, `C74_program`, `C74_call`, `C74_calls`, `C75_log_only`, `C79_budget`, `C81_used`, `C81_apart`, `C81_entry`, `C81_listed`, `C84_stale`, `C84_cipher`, `C84_replay_legacy`, `C85_possible`, `C86_possible`, `C89_lends`, `C92_safe`, `C92_brings`, `C93_violated_list`, `C94_noticed`, `C98_delayed`, `C98_metered`
* propext, Classical.choice, Quot.sound: `C01_log_open`, `C01_history`, `C01_open`, `C03_program`, `C03_login`, `C03_open`, `C03_operations`, `C03_keepalives_invisible`, `C04_delivers_exactly`, `C04_bad_frames`, `C04_too_long`, `C05_which`, `C05_cut_is_an_error`, `C06_isSessionRequest`, `C06_refused`, `C06_open`, `C06_name`, `C06_request_layout`, `C06_session`, `C07_port_fails`, `C07_port`, `C07_direct`, `C07_unreachable`, `C07_fallback`, `C08_recv`, `C08_collect`, `C08_call`, `C08_login`, `C08_login_ends`, `C08_recvMessage_terminates`, `C09_download`, `C09_header`, `C10_program`, `C10_ids`, `C10_all_sent`, `C11_window_partial`, `C12_program`, `C12_login`, `C12_own_reply`, `C12_foreign_replies`, `C13_accepted_iff`, `C13_rejected`, `C13_call`, `C14_any`, `C14_login_any`, `C14_unexpected`, `C15_any`, `C15_all_granted`, `C15_login_any`, `C15_never_success`, `C15_login_never_success`, `C15_status`, `C15_success`, `C17_read`, `C17_roundtrip`, `C18_path`, `C22_mount`, `C19_consistent`, `C19_login`, `C20_read`, `C22_mount_open`, `C22_recover`, `C22_password_partial`, `C25_negotiate`, `C25_authenticate`, `C25_classic`, `C25_sent`, `C25_refused`, `C25_partial`, `C26_sent`, `C27_login_partial`, `C27_violated_login`, `C27_partial`, `C27_size_partial`, `C27_exactly`, `C27_nameless`, `C28_violated_login`, `C28_violated`, `C28_partial`, `C28_names_partial`, `C28_exactly`, `C29_read`, `C29_mismatch`, `C29_only`, `C30_open`, `C30_directory`, `C30_only`, `C31_only`, `C31_mount`, `C31_unique`, `C32_only_negotiate`, `C32_only_session`, `C32_negotiate`, `C32_refused`, `C32_session`, `C33_notify`, `C33_only`, `C33_unique`, `C33_ends`, `C34_partial`, `C34_order_partial`, `C34_violated`, `C35_success`, `C35_unique`, `C35_error`, `C36_partial`, `C36_count`, `C36_only`, `C36_unique`, `C36_violated`, `C36_oem`, `C37_partial`, `C37_count`, `C37_exactly`, `C37_same`, `C37_violated`, `C37_oem`, `C37_violated_list`, `C38_login_partial`, `C38_open_partial`, `C38_download_partial`, `C38_list_partial`, `C38_violated_name`, `C38_challenge`, `C38_partial`, `C38_search_partial`, `C38_header`, `C38_status`, `C38_violated`, `C39_ceiling`, `C39_release`, `C39_violated`, `C39_content_partial`, `C40_course`, `C40_unique`, `C41_partial`, `C41_violated`, `C41_checked_partial`, `C42_violated`, `C43_partial`, `C43_violated`, `C44_complete`, `C44_course`, `C44_unique`, `C45_unwrap`, `C46_open`, `C46_opening`, `C46_flow`, `C46_login`, `C46_session`, `C47_partial`, `C47_violated`, `C48_open`, `C48_response`, `C48_login`, `C48_capitals`, `C48_sharp`, `C49_login`, `C49_negotiate`, `C49_authenticate`, `C49_parts`, `C49_forms`, `C50_exact`, `C50_decode`, `C50_unique`, `C51_without`, `C51_only_answers`, `C51_afterwards`, `C51_only_the_hash`, `C52_key`, `C52_response`, `C52_response_exactly`, `C52_open`, `C52_login`, `C54_utf16`, `C54_utf16_strict`, `C54_utf16_even`, `C54_utf8`, `C54_utf8_strict`, `C54_utf16_terminated`, `C54_utf8_terminated`, `C54_unterminated`, `C55_fails`, `C56_partial`, `C56_violated`, `C57_partial`, `C57_violated`, `C59_program`, `C59_own_commands`, `C59_modifying`, `C60_nothing_written`, `C60_overlong`, `C61_program_partial`, `C61_history_partial`, `C61_late_replies_partial`, `C61_violated`, `C63_any`, `C63_login_any`, `C63_text`, `C63_server_error`, `C64_any`, `C64_login_any`, `C64_injective`, `C64_unexpected`, `C64_login`, `C64_lines`, `C64_line_texts`, `C65_open`, `C65_headers`, `C66_operation`, `C66_program`, `C66_unambiguous`, `C66_possible`, `C66_services`, `C67_login_partial`, `C67_violated`, `C68_call_partial`, `C68_login_partial`, `C68_session_partial`, `C68_violated`, `C68_violated_size`, `C69_login`, `C69_right`, `C69_wrong`, `C69_program`, `C69_possible`, `C69_open`, `C69_open_right`, `C69_open_refused`, `C69_open_wrong`, `C70_operation`, `C70_program`, `C70_unambiguous`, `C70_mute`, `C71_call`, `C71_download`, `C71_list`, `C72_login`, `C72_open`, `C74_login`, `C74_open`, `C75_log_only_open`, `C75_log_lines`, `C75_log_lines_open`, `C75_log_partial`, `C75_log_mount_partial`, `C75_violated_mount`, `C75_outcome_partial`, `C75_violated`, `C75_violated_client`, `C75_violated_verbatim`, `C76_result_partial`, `C76_changes_partial`, `C76_violated`, `C77_program`, `C77_call`, `C77_login`, `C77_session`, `C77_calls`, `C78_sizes_partial`, `C78_received_partial`, `C78_requests_partial`, `C78_violated`, `C79_partial`, `C79_finite_partial`, `C79_checked_partial`, `C79_violated`, `C80_operation_partial`, `C80_program_partial`, `C80_session_partial`, `C80_services`, `C80_open_partial`, `C80_pages`, `C80_standard`, `C80_violated`, `C81_handle`, `C81_kinds`, `C81_share`, `C81_first`, `C82_partial`, `C82_violated`, `C83_taken`, `C83_padding`, `C83_most`, `C83_login`, `C84_bound_partial`, `C84_replay`, `C84_legacy`, `C84_violated`, `C84_violated_server`, `C85_snapshot`, `C85_needed`, `C85_reads`, `C86_answers`, `C86_order`, `C86_complete_partial`, `C86_behind`, `C86_violated`, `C87_blind`, `C87_violated`, `C87_violated_each`, `C87_kept_partial`, `C88_matches`, `C88_exact_partial`, `C88_folded_partial`, `C88_star`, `C88_possible`, `C88_violated`, `C89_partial`, `C89_possible`, `C89_violated`, `C90_heard`, `C90_plain_partial`, `C90_violated`, `C90_kind`, `C90_login`, `C90_service`, `C90_possible`, `C90_violated_delete`, `C91_astray`, `C91_service_partial`, `C91_files_partial`, `C91_violated`, `C92_copy`, `C92_session`, `C92_open`, `C93_text_partial`, `C93_text_next_partial`, `C93_violated`, `C93_violated_next`, `C93_text_notify_partial`, `C93_violated_notify`, `C94_call`, `C94_stays`, `C94_login`, `C94_login_noticed`, `C94_open`, `C95_program_partial`, `C95_cuts_open_partial`, `C95_cuts_partial`, `C95_violated`, `C96_operation`, `C96_program`, `C96_possible`, `C96_login`, `C97_login`, `C97_call`, `C97_mapped`, `C97_history`, `C97_program`, `C97_log`, `C97_log_program`, `C98_operation`, `C98_program`, `C98_login`, `C99_fetch_partial`, `C99_refused_partial`, `C99_violated`, `C99_wrong_partial`

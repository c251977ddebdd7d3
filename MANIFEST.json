{
 "claims": [
  {
   "property": "C01",
   "status": "partial",
   "theorems": [
    "Verif.Executer.C01_partial",
    "Verif.Executer.C01_own_response_partial",
    "Verif.Executer.C01_exact",
    "Verif.Executer.C01_lost",
    "Verif.Executer.C01_false"
   ],
   "note": "Proved for every history in which no packet number is reused while in use; the unrestricted claim is false of the code (C01_false: out-of-order completion). The condition is exact: once the device has answered everything, every callback was called once and with its own response if and only if no number was reused (C01_exact); after a reuse some accepted command is never answered, whatever happens (C01_lost)."
  },
  {
   "property": "C02",
   "status": "proved",
   "theorems": [
    "Verif.Executer.C02"
   ],
   "note": ""
  },
  {
   "property": "C03",
   "status": "partial",
   "theorems": [
    "Verif.Executer.C03_refused",
    "Verif.Executer.C03_pending",
    "Verif.Executer.C03_partial",
    "Verif.Executer.C03_false"
   ],
   "note": "Refusal and the bound on the pending list hold unconditionally; the bound on commands held by the device needs no packet-number reuse (C03_false: otherwise unbounded)."
  },
  {
   "property": "C04",
   "status": "partial",
   "theorems": [
    "Verif.Executer.C04_partial",
    "Verif.Executer.C04_false",
    "Verif.Executer.C04_index_consumed_false"
   ],
   "note": "False when the failing send was given a packet number in use (C04_false); proved otherwise."
  },
  {
   "property": "C05",
   "status": "proved",
   "theorems": [
    "Verif.Executer.C05_empty",
    "Verif.Executer.C05_drains"
   ],
   "note": "Callbacks are recorded; they do not raise or re-enter."
  },
  {
   "property": "C06",
   "status": "partial",
   "theorems": [
    "Verif.Executer.C06_partial",
    "Verif.Executer.C06_false"
   ],
   "note": "Missing: calls issued while their packet number is in use (then false: C06_false)."
  },
  {
   "property": "C07",
   "status": "partial",
   "theorems": [
    "Verif.Executer.C07",
    "Verif.Platform.Linux.C07_linux_partial",
    "Verif.Platform.Linux.C07_linux_false"
   ],
   "note": "Proved for the executer base class with any subclass. On Linux an unsolicited response that reports success raises AttributeError instead of AsiInternalError (C07_linux_false); nothing is delivered in any case."
  },
  {
   "property": "C08",
   "status": "proved",
   "theorems": [
    "Verif.Executer.C08_args",
    "Verif.Executer.C08_call"
   ],
   "note": ""
  },
  {
   "property": "C09",
   "status": "partial",
   "theorems": [
    "Verif.Coroutine.sync_wait_iff_direct",
    "Verif.Coroutine.C09_partial",
    "Verif.Coroutine.C09_execution_partial",
    "Verif.Coroutine.C09_false"
   ],
   "note": "sync_wait_iff_direct characterises the driver completely. Equality with the ideal direct-style reading is proved unless a coroutine returns right after handling an exception or an I/O token raises (C09_false)."
  },
  {
   "property": "C10",
   "status": "partial",
   "theorems": [
    "Verif.Coroutine.C10_innermost",
    "Verif.Coroutine.C10_unhandled",
    "Verif.Coroutine.C10_handled_partial",
    "Verif.Coroutine.C10_false",
    "Verif.Coroutine.C10_token_false"
   ],
   "note": "Propagation is proved in general; \"a handled exception stays handled\" only if the handler yields again before returning (C10_false, C10_token_false)."
  },
  {
   "property": "C11",
   "status": "proved",
   "theorems": [
    "Verif.Coroutine.C11",
    "Verif.Coroutine.C11_calls_twice",
    "Verif.Coroutine.C11_raises"
   ],
   "note": "For generator functions (calling them only creates the generator)."
  },
  {
   "property": "C12",
   "status": "proved",
   "theorems": [
    "Verif.Coroutine.C12",
    "Verif.Coroutine.trace_of_returned"
   ],
   "note": ""
  },
  {
   "property": "C13",
   "status": "proved",
   "theorems": [
    "Verif.Reactor.C13"
   ],
   "note": "Commands are distinct generator objects with independent world states; each finishes when run alone."
  },
  {
   "property": "C14",
   "status": "proved",
   "theorems": [
    "Verif.Reactor.C14"
   ],
   "note": "Same conditions as C13."
  },
  {
   "property": "C15",
   "status": "proved",
   "theorems": [
    "Verif.Platform.Linux.C15_response",
    "Verif.Platform.Linux.C15_call",
    "Verif.Platform.Linux.C15_check_condition",
    "Verif.Platform.Linux.C15_success"
   ],
   "note": "If decoding the sense data itself raises, that error is raised instead of AsiCheckConditionError. A set driver-sense flag counts as a non-zero driver status code."
  },
  {
   "property": "C16",
   "status": "partial",
   "theorems": [
    "Verif.Platform.Linux.C16_partial",
    "Verif.Platform.Linux.C16_never",
    "Verif.Platform.Linux.C16_false"
   ],
   "note": "False of the code: the SCSI status 18h is compared with the host status; the conflict is reported as plain AsiSCSIError."
  },
  {
   "property": "C17",
   "status": "partial",
   "theorems": [
    "Verif.Platform.Linux.C17_partial",
    "Verif.Platform.Linux.C17_always_success",
    "Verif.Platform.Linux.C17_false"
   ],
   "note": "False of the code: the answer of the kernel is never read back. Proved: an ioctl that itself fails raises."
  },
  {
   "property": "C18",
   "status": "proved",
   "theorems": [
    "Verif.Platform.Linux.C18_linux",
    "Verif.Platform.Solaris.C18_solaris",
    "Verif.Platform.Aix.C18_aix",
    "Verif.Platform.Win32.C18_windows",
    "Verif.Platform.Win32.C18_windows_long"
   ],
   "note": "For the CDB lengths the block can hold (AIX 64, Windows 16; Linux 255). Windows refuses longer ones with IndexError and sends nothing."
  },
  {
   "property": "C19",
   "status": "proved",
   "theorems": [
    "Verif.Platform.Win32.C19_refused",
    "Verif.Platform.Win32.C19_check_condition",
    "Verif.Platform.Win32.C19_other_status",
    "Verif.Platform.Win32.C19_read",
    "Verif.Platform.Win32.C19_no_data",
    "Verif.Platform.Win32.C19_ok"
   ],
   "note": "A read of which zero bytes were transferred gives None rather than an empty string."
  },
  {
   "property": "C20",
   "status": "partial",
   "theorems": [
    "Verif.Platform.Aix.C20_response",
    "Verif.Platform.Aix.C20_call_partial",
    "Verif.Platform.Aix.C20_refused",
    "Verif.Platform.Aix.C20_status",
    "Verif.Platform.Aix.C20_success",
    "Verif.Platform.Aix.C20_false"
   ],
   "note": "Everything is proved for the fcntl binding; with the libc binding a refused ioctl is reported as success (C20_false)."
  },
  {
   "property": "C21",
   "status": "proved",
   "theorems": [
    "Verif.Platform.Solaris.C21_response",
    "Verif.Platform.Solaris.C21_call",
    "Verif.Platform.Solaris.C21_check_condition",
    "Verif.Platform.Solaris.C21_success"
   ],
   "note": ""
  },
  {
   "property": "C22",
   "status": "proved",
   "theorems": [
    "Verif.Platform.C22_apart",
    "Verif.Platform.C22_natural",
    "Verif.Platform.C22_linux",
    "Verif.Platform.C22_aix",
    "Verif.Platform.C22_windows",
    "Verif.Platform.C22_solaris"
   ],
   "note": ""
  },
  {
   "property": "C23",
   "status": "partial",
   "theorems": [
    "Verif.Contexts.C23_partial",
    "Verif.Contexts.C23_executer",
    "Verif.Contexts.C23_not_opened",
    "Verif.Contexts.C23_leak",
    "Verif.Contexts.C23_win32_close_twice",
    "Verif.Contexts.C23_win32_close_failed",
    "Verif.Contexts.C23_false"
   ],
   "note": "False of the code if building the executer raises: the opened handle is never closed (C23_false). Otherwise proved."
  },
  {
   "property": "C24",
   "status": "partial",
   "theorems": [
    "Verif.Unix.C24_ready",
    "Verif.Unix.C24_timeout_partial",
    "Verif.Unix.C24_waits",
    "Verif.Unix.C24_ends",
    "Verif.Unix.C24_deterministic",
    "Verif.Unix.C24_false"
   ],
   "note": "False between polls: the clock is checked before polling again, so data that became ready during a sleep that outlasts the limit is reported as a timeout (C24_false)."
  },
  {
   "property": "C25",
   "status": "proved",
   "theorems": [
    "Verif.Cdb.C25"
   ],
   "note": ""
  },
  {
   "property": "C26",
   "status": "proved",
   "theorems": [
    "Verif.Cdb.C26_read6",
    "Verif.Cdb.C26_read10",
    "Verif.Cdb.C26_read12",
    "Verif.Cdb.C26_read16"
   ],
   "note": "READ(6) with a zero count is C27."
  },
  {
   "property": "C27",
   "status": "partial",
   "theorems": [
    "Verif.Cdb.C27_partial",
    "Verif.Cdb.C27_false"
   ],
   "note": "Holds for block size 512 only; false for every other block size (C27_false)."
  },
  {
   "property": "C28",
   "status": "proved",
   "theorems": [
    "Verif.Cdb.C28_write6",
    "Verif.Cdb.C28_write10",
    "Verif.Cdb.C28_write12",
    "Verif.Cdb.C28_write16"
   ],
   "note": "WRITE(6) for non-negative addresses; negative ones are C29. WRITE(12) also refuses an empty buffer."
  },
  {
   "property": "C29",
   "status": "partial",
   "theorems": [
    "Verif.Cdb.C29_whole_byte",
    "Verif.Cdb.C29_partial",
    "Verif.Cdb.C29_decode",
    "Verif.Cdb.C29_injective",
    "Verif.Commands.C29_objects",
    "Verif.Cdb.C29_false"
   ],
   "note": "Commands made of whole-byte fields: proved outright. The others: under the assumption that the external library refuses values that do not fit a bit field or positional field; without it false (C29_false)."
  },
  {
   "property": "C30",
   "status": "partial",
   "theorems": [
    "Verif.Cdb.C30_partial",
    "Verif.Cdb.C30_false"
   ],
   "note": "Address and count proved; \"exactly one block of data\" is false (C30_false)."
  },
  {
   "property": "C31",
   "status": "partial",
   "theorems": [
    "Verif.Cdb.C31_partial",
    "Verif.Cdb.C31_false"
   ],
   "note": "Address and count proved; \"2 x n blocks of data\" is false (C31_false)."
  },
  {
   "property": "C32",
   "status": "partial",
   "theorems": [
    "Verif.Cdb.C32_partial",
    "Verif.Cdb.C32_false"
   ],
   "note": "Ranges, refusal and two of the three length fields proved; the data length field is always one too large (C32_false)."
  },
  {
   "property": "C33",
   "status": "proved",
   "theorems": [
    "Verif.Cdb.C33",
    "Verif.Cdb.C33_six"
   ],
   "note": ""
  },
  {
   "property": "C34",
   "status": "partial",
   "theorems": [
    "Verif.Cdb.C34_basic_partial",
    "Verif.Cdb.C34_register_and_move",
    "Verif.Parse.C34_move_to_reported",
    "Verif.Cdb.C34_false"
   ],
   "note": "APTPL is never sent for actions other than REGISTER AND MOVE (C34_false); everything else proved."
  },
  {
   "property": "C35",
   "status": "partial",
   "theorems": [
    "Verif.Parse.C35_read_keys",
    "Verif.Parse.C35_read_keys_incomplete",
    "Verif.Parse.C35_read_reservation",
    "Verif.Parse.C35_no_reservation",
    "Verif.Parse.C35_report_capabilities",
    "Verif.Parse.C35_read_full_status",
    "Verif.Parse.C35_no_status",
    "Verif.Parse.C35_other",
    "Verif.Parse.C35_read_reservation_cut_false",
    "Verif.Parse.C35_full_status_length_false",
    "Verif.Commands.Reserve.C35_named"
   ],
   "note": "All complete responses are proved. Every READ RESERVATION response of exactly 21 bytes raises instead of giving the fields present (C35_read_reservation_cut_false); asking READ FULL STATUS for its needed length raises NameError (C35_full_status_length_false)."
  },
  {
   "property": "C36",
   "status": "proved",
   "theorems": [
    "Verif.Cdb.C36_inquiry",
    "Verif.Cdb.C36_inquiry_classes",
    "Verif.Cdb.C36_read_capacity10",
    "Verif.Cdb.C36_read_capacity16",
    "Verif.Cdb.C36_report_luns",
    "Verif.Cdb.C36_rtpg",
    "Verif.Cdb.C36_log_sense",
    "Verif.Cdb.C36_receive_copy",
    "Verif.Cdb.C36_receive_diagnostic",
    "Verif.Cdb.C36_test_unit_ready",
    "Verif.Cdb.C36_persistent_reserve_in"
   ],
   "note": ""
  },
  {
   "property": "C37",
   "status": "proved",
   "theorems": [
    "Verif.Parse.C37_capacity10",
    "Verif.Parse.C37_capacity16",
    "Verif.Parse.C37_short",
    "Verif.Parse.C37_lowest_aligned"
   ],
   "note": ""
  },
  {
   "property": "C38",
   "status": "proved",
   "theorems": [
    "Verif.Parse.C38_decodes",
    "Verif.Parse.C38_sound",
    "Verif.Parse.C38_injective",
    "Verif.Parse.C38_refuses",
    "Verif.Parse.C38_allowed",
    "Verif.Parse.C38_incomplete",
    "Verif.Parse.C38_raw"
   ],
   "note": ""
  },
  {
   "property": "C39",
   "status": "partial",
   "theorems": [
    "Verif.Parse.C39_length_only",
    "Verif.Parse.C39_extended_partial",
    "Verif.Parse.C39_extended_false",
    "Verif.Parse.C39_extended_raises",
    "Verif.Commands.C39_objects",
    "Verif.Parse.C39_signed_false"
   ],
   "note": "Length-only responses: proved (up to 127 ports per group if whole-byte integers are signed in the library, C39_signed_false). Extended responses: the header is right (C39_extended_partial), the groups never are, for any response, because the descriptors are looked for one byte too early (C39_extended_false); a response with nothing behind it always raises (C39_extended_raises)."
  },
  {
   "property": "C40",
   "status": "partial",
   "theorems": [
    "Verif.Sense.C40_fixed_partial",
    "Verif.Sense.C40_named",
    "Verif.Sense.C40_short",
    "Verif.Sense.C40_other",
    "Verif.Sense.C40_sks_false"
   ],
   "note": "All fields but the last byte of SENSE KEY SPECIFIC, which the library does not report (C40_sks_false)."
  },
  {
   "property": "C41",
   "status": "partial",
   "theorems": [
    "Verif.Sense.C41_partial",
    "Verif.Sense.C41_false",
    "Verif.Sense.C41_own_layout"
   ],
   "note": "Key and codes are decoded; the descriptors are lost for every conforming buffer (C41_false), because their length is looked for one byte too early. C41_own_layout: with the length there, everything is decoded."
  },
  {
   "property": "C42",
   "status": "partial",
   "theorems": [
    "Verif.Sense.C42_tabulated",
    "Verif.Sense.C42_ranges_partial",
    "Verif.Sense.C42_unknown",
    "Verif.Sense.C42_total",
    "Verif.Sense.C42_ranges_false"
   ],
   "note": "The parametric ranges miss qualifier FFh (C42_ranges_false); everything else proved for all 65536 pairs. The texts of the table are transcribed from the code, not compared with the standard."
  },
  {
   "property": "C43",
   "status": "partial",
   "theorems": [
    "Verif.Parse.C43_decodes",
    "Verif.Parse.C43_vendor",
    "Verif.Parse.C43_refuses",
    "Verif.Parse.C43_cut_false",
    "Verif.Parse.C43_length_false"
   ],
   "note": "Complete pages are proved (NAA identifiers for a library that joins references least significant part first, see C49; non-ASCII texts as the library decodes them). A page cut at the allocation length 252 shortens the last name silently (C43_cut_false). A designator whose announced length differs from its format swallows its successor (C43_length_false)."
  },
  {
   "property": "C44",
   "status": "proved",
   "theorems": [
    "Verif.Parse.C44_supported",
    "Verif.Parse.C44_supported_short",
    "Verif.Parse.C44_serial",
    "Verif.Parse.C44_serial_padded",
    "Verif.Parse.C44_unknown",
    "Verif.Parse.C44_block_limits",
    "Verif.Parse.C44_provisioning",
    "Verif.Parse.C44_provisioning_group",
    "Verif.Parse.C44_veritas",
    "Verif.Parse.C44_short",
    "Verif.Parse.C44_serial_roundtrip",
    "Verif.Parse.C44_unknown_roundtrip"
   ],
   "note": "unmap_granularity_alignment for a library that joins references least significant part first (C49)."
  },
  {
   "property": "C45",
   "status": "partial",
   "theorems": [
    "Verif.Parse.C45_unpack",
    "Verif.Parse.C45_short",
    "Verif.Parse.C45_roundtrip",
    "Verif.Parse.C45_roundtrip_false"
   ],
   "note": "Unpacking is proved for every response of at least 36 bytes. The round trip needs 20 vendor specific bytes, at least one version descriptor and, if more vendor data follows, eight of them; otherwise it fails (C45_roundtrip_false)."
  },
  {
   "property": "C46",
   "status": "partial",
   "theorems": [
    "Verif.Parse.Ses.C46_configuration",
    "Verif.Parse.Ses.C46_status",
    "Verif.Parse.Ses.C46_descriptors",
    "Verif.Parse.Ses.C46_names",
    "Verif.Parse.Ses.C46_agrees",
    "Verif.Parse.Ses.C46_enclosure_agrees",
    "Verif.Parse.Ses.C46_requests_false",
    "Verif.Parse.Ses.C46_sign_false",
    "Verif.Parse.Ses.C46_count_false"
   ],
   "note": "Structure (one entry per element, each from its own bytes) is proved for all configurations. Field values agree with SES except: the request fields of the enclosure element come from the wrong byte (C46_requests_false), one of the sign conventions is wrong whichever the library uses (C46_sign_false), and with signed byte integers counts of 128 or more lose elements (C46_count_false)."
  },
  {
   "property": "C47",
   "status": "partial",
   "theorems": [
    "Verif.Parse.C47_identify_partial",
    "Verif.Parse.C47_page_partial",
    "Verif.Parse.C47_texts_partial",
    "Verif.Parse.C47_model_false",
    "Verif.Parse.C47_page_code_false"
   ],
   "note": "The model number misses word 46 (C47_model_false). If byte integers are signed in the library the page code comes back negative (C47_page_code_false). For ASCII texts."
  },
  {
   "property": "C48",
   "status": "proved",
   "theorems": [
    "Verif.C48_struct",
    "Verif.C48_padding",
    "Verif.C48_buffer",
    "Verif.C48_const"
   ],
   "note": "For all declarations of both styles (sequential Struct, positional Buffer)."
  },
  {
   "property": "C49",
   "status": "partial",
   "theorems": [
    "Verif.Parse.C49_low_partial",
    "Verif.Parse.C49_high_partial",
    "Verif.Parse.C49_false"
   ],
   "note": "False whichever order the library joins references in (C49_false); the partial theorems say which fields are right for each order."
  },
  {
   "property": "C50",
   "status": "proved",
   "theorems": [
    "Verif.Commands.C50_vpd",
    "Verif.Commands.C50_vpd_classes",
    "Verif.Commands.C50_ses",
    "Verif.Commands.C50_ses_classes"
   ],
   "note": "Diagnostic page codes that do not fit a byte are refused if the external library refuses them (C29)."
  },
  {
   "property": "C51",
   "status": "proved",
   "theorems": [
    "Verif.ExecuterGen.C51_call",
    "Verif.ExecuterGen.C51_wait",
    "Verif.ExecuterGen.C51_execute",
    "Verif.ExecuterGen.C51_session",
    "Verif.ExecuterGen.C51_linux",
    "Verif.ExecuterGen.C51_solaris",
    "Verif.ExecuterGen.C51_aix",
    "Verif.ExecuterGen.C51_windows"
   ],
   "note": "For any command of the shape all execute methods share: build the datagram, yield one call, decode, yield the result. On Windows the synchronous handle."
  },
  {
   "property": "C52",
   "status": "proved",
   "theorems": [
    "Verif.Platform.Linux.C52_linux",
    "Verif.Platform.Linux.C52_session"
   ],
   "note": "The sg driver model is Verif.Props.LinuxDevice.sgDevice; sense decoding must not raise for a session to go on."
  },
  {
   "property": "C53",
   "status": "proved",
   "theorems": [
    "Verif.Platform.Solaris.C53_solaris",
    "Verif.Platform.Solaris.C53_session"
   ],
   "note": "The driver model is uscsiDevice; sense decoding must not raise for a session to go on."
  },
  {
   "property": "C54",
   "status": "partial",
   "theorems": [
    "Verif.Platform.Aix.C54_aix_partial",
    "Verif.Platform.Aix.C54_session_partial",
    "Verif.Platform.Aix.C54_false"
   ],
   "note": "The driver model is scDevice; sense decoding must not raise for a session to go on. Proved for the libc binding and any address, and for the fcntl binding with the request block below 2^31. False above that: fcntl.ioctl raises OverflowError before anything is sent (C54_false)."
  },
  {
   "property": "C55",
   "status": "proved",
   "theorems": [
    "Verif.Platform.Win32.C55_windows",
    "Verif.Platform.Win32.C55_session"
   ],
   "note": "The driver model is sptDevice; sense decoding must not raise for a session to go on."
  },
  {
   "property": "C56",
   "status": "proved",
   "theorems": [
    "Verif.Parse.C56_receive_copy",
    "Verif.Parse.C56_short"
   ],
   "note": ""
  },
  {
   "property": "C57",
   "status": "proved",
   "theorems": [
    "Verif.Sense.C57_linux",
    "Verif.Sense.C57_solaris",
    "Verif.Sense.C57_aix",
    "Verif.Sense.C57_windows",
    "Verif.Sense.C57_decodable",
    "Verif.Sense.C57_session"
   ],
   "note": "Descriptor format with the reserved byte 6 zero."
  },
  {
   "property": "C58",
   "status": "partial",
   "theorems": [
    "Verif.Parse.Ses.C58_bytes_partial",
    "Verif.Parse.Ses.C58_length_false"
   ],
   "note": "All bytes after the header are returned in order; PAGE LENGTH is ignored, so bytes after the announced end are returned as entries (C58_length_false)."
  },
  {
   "property": "C59",
   "status": "proved",
   "theorems": [
    "Verif.Commands.C59_linux",
    "Verif.Commands.C59_solaris",
    "Verif.Commands.C59_aix",
    "Verif.Commands.C59_windows",
    "Verif.Commands.C59_read_back",
    "Verif.Commands.C59_read_back_linux",
    "Verif.Commands.C59_unmapped"
   ],
   "note": "READ(6) with count 0 only for 512-byte blocks (C27); WRITE SAME only for block sizes that are multiples of 512 (C30); COMPARE AND WRITE with a buffer of twice the count (C31); a disk that finds the ranges of an UNMAP by the block descriptor length, ignores the other length (C32), and reads unmapped blocks as zeros."
  },
  {
   "property": "C60",
   "status": "proved",
   "theorems": [
    "Verif.WindowsAsync.C60_returns",
    "Verif.WindowsAsync.C60_raises",
    "Verif.WindowsAsync.C60_progress",
    "Verif.WindowsAsync.C60_ends",
    "Verif.WindowsAsync.C60_healthy"
   ],
   "note": "For distinct command objects and a device that serves every request it was given (requests pended by the I/O manager, then served in any order; other behaviours of the I/O manager are C61). More commands than the queue has room for raise NameError, see C04. Commands of the shape all execute methods share (C51)."
  },
  {
   "property": "C61",
   "status": "partial",
   "theorems": [
    "Verif.WindowsAsync.C61_device_partial",
    "Verif.WindowsAsync.C61_error_lost_false",
    "Verif.WindowsAsync.C61_completed_at_once_false"
   ],
   "note": "Proved for requests that are pended and then served. False otherwise: a pended request that fails is reported as a success (C61_error_lost_false) because the result of GetOverlappedResult is dropped, and a request completed at once raises though it was carried out (C61_completed_at_once_false)."
  },
  {
   "property": "C62",
   "status": "partial",
   "theorems": [
    "Verif.Commands.C62_windows",
    "Verif.Commands.C62_linux_partial",
    "Verif.Commands.C62_solaris_partial",
    "Verif.Commands.C62_aix_partial",
    "Verif.Commands.C62_linux_false",
    "Verif.Commands.C62_extended_linux_false",
    "Verif.Commands.C62_extended_solaris_false",
    "Verif.Commands.C62_extended_aix_false",
    "Verif.Commands.C62_extended_windows_false"
   ],
   "note": "Proved on Windows but for the extended REPORT TARGET PORT GROUPS. On Linux, Solaris and AIX a response shorter than the allocation length reaches the decoder filled up with zeros: a provisioning page without group, READ RESERVATION without reservation and the supported diagnostic pages show things the target did not send (C62_linux_false); the _partial theorems say what is shown instead and prove the rest. Pages longer than the allocation length are C81. The groups of an extended REPORT TARGET PORT GROUPS response never reach the caller: Windows always raises, the others raise or show other groups (C62_extended_*_false, for all targets, groups and allocation lengths). Not covered: diagnostic pages without a decoder."
  },
  {
   "property": "C63",
   "status": "partial",
   "theorems": [
    "Verif.Commands.C63_windows",
    "Verif.Commands.C63_tells",
    "Verif.Commands.C63_linux_false",
    "Verif.Commands.C63_solaris_false",
    "Verif.Commands.C63_aix_false"
   ],
   "note": "Proved on Windows. False on Linux, Solaris and AIX, for every device, command and length: the residual count is not looked at, data and the same data followed by zeros give the same result."
  },
  {
   "property": "C64",
   "status": "partial",
   "theorems": [
    "Verif.Adapter.C64_execute",
    "Verif.Adapter.C64_session",
    "Verif.Adapter.C64_linux",
    "Verif.Adapter.C64_send",
    "Verif.Adapter.C64_wait",
    "Verif.Adapter.C64_is_queue_full_false",
    "Verif.Adapter.wrapsCall_exists"
   ],
   "note": "Proved for call (any command, any platform, any sequence), send and wait. False for is_queue_full: sync_call treats the bool as a generator, AttributeError in every state. Commands of the shape all execute methods share (C51)."
  },
  {
   "property": "C65",
   "status": "proved",
   "theorems": [
    "Verif.Commands.Reserve.C65_linux",
    "Verif.Commands.Reserve.C65_solaris",
    "Verif.Commands.Reserve.C65_aix",
    "Verif.Commands.Reserve.C65_windows",
    "Verif.Commands.Reserve.C65_named",
    "Verif.Commands.Reserve.C65_named_linux"
   ],
   "note": "Without APTPL (C34), SPEC_I_PT, ALL_TG_PT and REGISTER AND MOVE; READ RESERVATION with at least 24 bytes (C35); a unit with room for fewer than 2^29 registrations. A conflict is told from other failures by the type of the exception only (C16)."
  },
  {
   "property": "C66",
   "status": "partial",
   "theorems": [
    "Verif.Commands.C66_partial",
    "Verif.Commands.C66_told",
    "Verif.Commands.C66_session",
    "Verif.Commands.C66_race",
    "Verif.Commands.C66_false",
    "Verif.Platform.Linux.C66_ioctl"
   ],
   "note": "Proved while no operation fails. False otherwise: the statuses are read from the block as it was sent (C17), so a failed operation is shown as done and a failed read as zeros; C66_told states exactly what every caller sees."
  },
  {
   "property": "C67",
   "status": "partial",
   "theorems": [
    "Verif.Platform.Linux.C67_partial",
    "Verif.Platform.Linux.C67_in_order",
    "Verif.Platform.Linux.C67_exact",
    "Verif.Platform.Linux.C67_lost",
    "Verif.Platform.Linux.C67_false"
   ],
   "note": "Proved for histories in which no packet number is given to a command while another outstanding command has it, in particular whenever the device answers in order (C67_in_order). The condition is exact: once the driver has nothing left, all callbacks were called if and only if it held (C67_exact), otherwise an accepted command is never answered (C67_lost). False otherwise (C67_false): the answer and the data of the old command go to the callback of the new one. Devices whose sense data can be decoded (C57)."
  },
  {
   "property": "C68",
   "status": "partial",
   "theorems": [
    "Verif.Greenlets.C68_partial",
    "Verif.Greenlets.C68_queue_full",
    "Verif.Greenlets.C68_unsent",
    "Verif.Greenlets.C68_alone",
    "Verif.Greenlets.C68_false"
   ],
   "note": "Proved: whatever a call returns is the answer to its own command, nothing is lost or delivered twice, a call fails otherwise only by a full queue (NameError, nothing sent), by the error of its own write (nothing sent, nobody disturbed) or a timeout; with one greenlet at a time in a call, a timeout means the device did not answer. False: that every call ends well if the device answers (C68_false): two greenlets that read each other's response leave one polling for a response that will not come until it times out. Packet numbers not coming round to outstanding commands (C01, C67)."
  },
  {
   "property": "C69",
   "status": "proved",
   "theorems": [
    "Verif.Commands.SharedDisk.C69_linux",
    "Verif.Commands.SharedDisk.C69_solaris",
    "Verif.Commands.SharedDisk.C69_aix",
    "Verif.Commands.SharedDisk.C69_windows"
   ],
   "note": "As C59 and C65. Commands about other things (INQUIRY, ...) are not in the sequences; commands aborted by a preemption are left out."
  },
  {
   "property": "C70",
   "status": "proved",
   "theorems": [
    "Verif.Commands.SharedDisk.C70_linux",
    "Verif.Commands.SharedDisk.C70_solaris",
    "Verif.Commands.SharedDisk.C70_aix",
    "Verif.Commands.SharedDisk.C70_windows"
   ],
   "note": "The executer used by this host only; a registration of this host is unique (kept by everything hosts do: act_sole, run_sole)."
  },
  {
   "property": "C71",
   "status": "partial",
   "theorems": [
    "Verif.Callbacks.C71_partial",
    "Verif.Callbacks.C71_wait",
    "Verif.Callbacks.C71_call",
    "Verif.Callbacks.C71_no_hang",
    "Verif.Callbacks.C71_raises",
    "Verif.Callbacks.C71_sends",
    "Verif.Callbacks.C71_reads",
    "Verif.Callbacks.C71_call_ends",
    "Verif.Callbacks.C71_false",
    "Verif.Callbacks.C71_default_callback_false"
   ],
   "note": "Proved for runs in which no packet number is reused while in use (C01; C02 says when). False: that a call ends with its own answer (C71_false): an exception of the callback of another command, read in the loop of the call, leaves through the call; so does the TypeError of a command sent with the default callback=None (C71_default_callback_false). Python recursion limits are not modelled."
  },
  {
   "property": "C72",
   "status": "partial",
   "theorems": [
    "Verif.Timeouts.C72_linux",
    "Verif.Timeouts.C72_ioctl",
    "Verif.Timeouts.C72_solaris_partial",
    "Verif.Timeouts.C72_aix",
    "Verif.Timeouts.C72_waited",
    "Verif.Timeouts.C72_windows_false",
    "Verif.Timeouts.C72_unit_false",
    "Verif.Timeouts.C72_solaris_false",
    "Verif.Timeouts.C72_waited_false"
   ],
   "note": "Proved: the default is thirty seconds on Linux, Solaris and AIX, and the limit given reaches the driver (on Solaris below 32768). False: Windows always has ten seconds and takes no limit; limits are milliseconds on Linux and seconds on Solaris and AIX; on Solaris the field has 16 bits, 65536 seconds become none; the library stops waiting after sixty seconds whatever limit the driver was given."
  },
  {
   "property": "C73",
   "status": "partial",
   "theorems": [
    "Verif.Platform.Linux.C73_partial",
    "Verif.Platform.Linux.C73_own_partial",
    "Verif.Platform.Linux.C73_recent",
    "Verif.Platform.Linux.C73_few",
    "Verif.Platform.Linux.C73_false"
   ],
   "note": "Proved as long as no packet number is given out again while the command that had it is outstanding; this holds when every late answer is read within the next (queue size - 1) calls (C73_recent) and for the first (queue size) calls (C73_few). False otherwise (C73_false): a READ is handed the late data of the READ that had its packet number before. Devices whose sense data can be decoded (C57)."
  },
  {
   "property": "C74",
   "status": "partial",
   "theorems": [
    "Verif.Errors.C74_aix_partial",
    "Verif.Errors.C74_aix_kept",
    "Verif.Errors.C74_aix_false",
    "Verif.Errors.C74_windows_partial",
    "Verif.Errors.C74_linux_partial",
    "Verif.Errors.C74_solaris_partial",
    "Verif.Errors.C74_decodes",
    "Verif.Errors.C74_device_linux",
    "Verif.Errors.C74_device_solaris",
    "Verif.Errors.C74_device_aix",
    "Verif.Errors.C74_device_windows",
    "Verif.Errors.C74_linux_false",
    "Verif.Errors.C74_solaris_false",
    "Verif.Errors.C74_solaris_good",
    "Verif.Errors.C74_queue_full_false",
    "Verif.Errors.C74_sense_false"
   ],
   "note": "Proved for every driver on AIX and Windows up to undecodable sense data, and for all errors of devices that leave the reserved byte of descriptor sense data zero. False: on AIX an address fcntl.ioctl cannot pass is an OverflowError; on Linux and Solaris an IOError of the driver leaves as it is; with a Solaris driver that fails the ioctl as the USCSI_DIAGNOSE flag set by the executer asks, every error of every device becomes a bare IOError and the sense data is lost; a full queue is a NameError."
  },
  {
   "property": "C75",
   "status": "partial",
   "theorems": [
    "Verif.Options.C75_read10",
    "Verif.Options.C75_read12",
    "Verif.Options.C75_read16",
    "Verif.Options.C75_write10",
    "Verif.Options.C75_write12",
    "Verif.Options.C75_write16",
    "Verif.Options.C75_compareAndWrite",
    "Verif.Options.C75_writeSame10",
    "Verif.Options.C75_writeSame16",
    "Verif.Options.C75_unmap",
    "Verif.Options.C75_inquiry",
    "Verif.Options.C75_readCapacity10",
    "Verif.Options.C75_readCapacity16",
    "Verif.Options.C75_reportLuns",
    "Verif.Options.C75_rtpg",
    "Verif.Options.C75_testUnitReady",
    "Verif.Options.C75_logSense",
    "Verif.Options.C75_receiveCopy",
    "Verif.Options.C75_receiveDiagnostic",
    "Verif.Options.C75_reserve6",
    "Verif.Options.C75_release6",
    "Verif.Options.C75_reserve10",
    "Verif.Options.C75_release10",
    "Verif.Options.C75_prOut",
    "Verif.Options.C75_prIn",
    "Verif.Options.C75_control_ignored",
    "Verif.Options.C75_reset_false",
    "Verif.Options.C75_opcode_false",
    "Verif.Options.C75_read6_partial",
    "Verif.Options.C75_write6_partial",
    "Verif.Options.C75_ignored",
    "Verif.Options.C75_buffer",
    "Verif.Options.C75_address_false",
    "Verif.Options.C75_names_false",
    "Verif.Options.C75_buffer_false",
    "Verif.Options.C75_new_read6",
    "Verif.Options.C75_new_read10",
    "Verif.Options.C75_new_read12",
    "Verif.Options.C75_new_read16",
    "Verif.Options.C75_new_write6",
    "Verif.Options.C75_new_write10",
    "Verif.Options.C75_new_write12",
    "Verif.Options.C75_new_write16",
    "Verif.Options.C75_new_writeSame10",
    "Verif.Options.C75_new_writeSame16",
    "Verif.Options.C75_new_compareAndWrite",
    "Verif.Options.C75_new_unmap",
    "Verif.Options.C75_new_inquiry",
    "Verif.Options.C75_new_readCapacity10",
    "Verif.Options.C75_new_readCapacity16",
    "Verif.Options.C75_new_reportLuns",
    "Verif.Options.C75_new_rtpg",
    "Verif.Options.C75_new_testUnitReady",
    "Verif.Options.C75_new_logSense",
    "Verif.Options.C75_new_receiveCopy",
    "Verif.Options.C75_new_receiveDiagnostic",
    "Verif.Options.C75_new_reserve6",
    "Verif.Options.C75_new_release6",
    "Verif.Options.C75_new_reserve10",
    "Verif.Options.C75_new_release10",
    "Verif.Options.C75_new_prOut",
    "Verif.Options.C75_new_prIn"
   ],
   "note": "Proved for all option names the classes declare. False: a changed address of READ(6)/WRITE(6) is not sent (it is split by the constructor); a changed buffer keeps the old transfer length; RDPROTECT is called \"reserved\" in READ(12) and READ(16) and an assignment to rdprotect is ignored there, likewise group_number of READ(12), unmap of WRITE SAME(10); the control byte of LOG SENSE, RECEIVE DIAGNOSTIC RESULTS and PERSISTENT RESERVE IN and OUT cannot be set (C75_control_ignored, C75_reset_false); the operation code of RESERVE(10) alone can be assigned, which makes it another command (C75_opcode_false). All command classes are covered. Changing members of the default control object in place is C84."
  },
  {
   "property": "C76",
   "status": "partial",
   "theorems": [
    "Verif.Parse.C76_designator",
    "Verif.Parse.C76_standard",
    "Verif.Parse.C76_page",
    "Verif.Parse.C76_blockLimits",
    "Verif.Parse.C76_veritas",
    "Verif.Parse.C76_provisioning",
    "Verif.Parse.C76_t10_false",
    "Verif.Parse.C76_t10_length",
    "Verif.Parse.C76_reserved_false"
   ],
   "note": "Proved for all designator classes but two, for the device identification page (page_length assigned by the caller), and for the block limits, Veritas and logical block provisioning pages (the latter without group descriptor, and one byte shorter than the standard's). C44 and C45 cover the serial number and unknown pages. False: T10VendorIDDesignator writes a length that leaves out the eight bytes of the vendor and is never read back as built; Reserved_Designator cannot be packed (AttributeError, misspelt attribute)."
  },
  {
   "property": "C77",
   "status": "partial",
   "theorems": [
    "Verif.ReactorWaits.C77_wait",
    "Verif.ReactorWaits.C77_results",
    "Verif.ReactorWaits.C77_partial",
    "Verif.ReactorWaits.C77_false",
    "Verif.ReactorWaits.C77_windows_false"
   ],
   "note": "Proved for up to 64 commands: every documented return is understood, every schedule ends with each command's own result, and only a failing operating system or a timeout raises. False for more than 64 commands that perform I/O: WaitForMultipleObjects takes at most 64 handles, so the first wait always raises, after all requests have been started; C77_windows_false is this for the executers of win32.py."
  },
  {
   "property": "C78",
   "status": "partial",
   "theorems": [
    "Verif.Release.C78_partial",
    "Verif.Release.C78_released",
    "Verif.Release.C78_false",
    "Verif.Release.C78_wait_false"
   ],
   "note": "Proved while wait_for runs: in every state every request in flight has its block and its overlapped structure in use. False when wait_for raises: in every way it can raise, once Python has given up its coroutines, no request still in flight has its block in use and at most one its overlapped structure (C78_released); for any commands, an error answered to one of them, or a failed wait, leaves all others in flight like that (C78_false, C78_wait_false)."
  },
  {
   "property": "C79",
   "status": "partial",
   "theorems": [
    "Verif.Platform.Win32.Ahead.C79_refines",
    "Verif.Platform.Win32.Ahead.C79_own",
    "Verif.Platform.Win32.Ahead.C79_partial",
    "Verif.Platform.Win32.Ahead.C79_false"
   ],
   "note": "Proved: exactly what happens in every program (C79_refines); no callback or call gets another command's answer, callbacks are called at most once, nothing else is raised (C79_own); as long as at most (queue size) commands are given between two waits, every callback is called by the next wait and nothing is refused (C79_partial). False without waits (C79_false): for every queue size from 2 on, a command sent with a callback and then (queue size) calls, and the callback is never called whatever follows, without any exception. Buffers of outstanding requests do not overlap; sense data that can be decoded."
  },
  {
   "property": "C80",
   "status": "partial",
   "theorems": [
    "Verif.Platform.QueueSize.C80_linux",
    "Verif.Platform.QueueSize.C80_ioctl",
    "Verif.Platform.QueueSize.C80_windows",
    "Verif.Platform.QueueSize.C80_solaris",
    "Verif.Platform.QueueSize.C80_aix",
    "Verif.Platform.QueueSize.C80_solaris_partial",
    "Verif.Platform.QueueSize.C80_aix_partial",
    "Verif.Platform.QueueSize.C80_solaris_false",
    "Verif.Platform.QueueSize.C80_aix_false",
    "Verif.Platform.QueueSize.C80_solaris_ahead_false",
    "Verif.Platform.QueueSize.C80_aix_ahead_false"
   ],
   "note": "Proved for commands executed one at a time on Linux (also ioctl, where by C17 every command is told successful) and Windows with any size, on Solaris and AIX with size 1. False on Solaris and AIX with any other size, for all devices and commands: exactly every n-th command has its result (C80_solaris, C80_aix say what the others raise); with two commands sent ahead the first callback is told about the second command and the second is not called. Commands sent ahead on Linux and Windows are C67 and C79, on the ioctl executer C83."
  },
  {
   "property": "C81",
   "status": "partial",
   "theorems": [
    "Verif.Commands.C81_covers",
    "Verif.Commands.C81_linux_partial",
    "Verif.Commands.C81_solaris_partial",
    "Verif.Commands.C81_aix_partial",
    "Verif.Commands.C81_windows_partial",
    "Verif.Commands.C81_linux_false",
    "Verif.Commands.C81_extended_windows_partial"
   ],
   "note": "Proved end to end on all platforms: for every position of the cut, the caller gets an exception (every descriptor with numbers, every header) or the part that arrived with the length the target announced; C81_covers: no length is left out. False that differing targets are never shown alike: a serial number, SCSI name or TransportID that is cut, and a list cut between two descriptors, are returned normally (C81_linux_false). SES configuration, status and element descriptor pages of 65536 to 65539 bytes (the longest there can be; the allocation length is 65535) included: the caller is refused, or is shown all but the last one to four bytes. REPORT TARGET PORT GROUPS with the extended header, cut anywhere: an exception or the announced length (C81_extended_windows_partial; C62_extended_*_false on the other platforms)."
  },
  {
   "property": "C82",
   "status": "proved",
   "theorems": [
    "Verif.Durable.C82_linux",
    "Verif.Durable.C82_solaris",
    "Verif.Durable.C82_aix",
    "Verif.Durable.C82_windows",
    "Verif.Durable.C82_survives",
    "Verif.Durable.C82_survives_linux",
    "Verif.Durable.C82_survives_solaris",
    "Verif.Durable.C82_survives_aix",
    "Verif.Durable.C82_survives_windows",
    "Verif.Durable.C82_told",
    "Verif.Durable.C82_default_false",
    "Verif.Durable.C82_ignored",
    "Verif.Durable.C82_ignored_false"
   ],
   "note": "Proved end to end on all platforms for READ and WRITE (10, 12, 16) and COMPARE AND WRITE objects with any assigned options among any commands of C59: survival with fua, and nothing lost without anybody being told without it. Limits shown beside it: fua assigned to WRITE(6), WRITE SAME or UNMAP objects is accepted in silence and not sent (C82_ignored); an acknowledged WRITE(6) with fua set is gone after a loss of power (C82_ignored_false), as is any write as it is constructed, the default being no fua (C82_default_false). SYNCHRONIZE CACHE does not exist in the library."
  },
  {
   "property": "C83",
   "status": "partial",
   "theorems": [
    "Verif.Platform.Linux.Ahead.C83_refines",
    "Verif.Platform.Linux.Ahead.C83_own",
    "Verif.Platform.Linux.Ahead.C83_paired_partial",
    "Verif.Platform.Linux.Ahead.C83_one_partial",
    "Verif.Platform.Linux.Ahead.C83_false",
    "Verif.Platform.Linux.Ahead.C83_two_false"
   ],
   "note": "Proved: exactly what happens in every program (C83_refines); no callback or call gets the data of another command, callbacks are called at most once, only AttributeError is raised (C83_own); everything works with queue size 1, as linux_dm makes it (C83_one_partial), and with any size if every send is followed by wait (C83_paired_partial). False with any size from 2 on: a command followed by another one before wait is never answered whatever follows (C83_false), and wait raises AttributeError (C83_two_false). That errors of the device are never told is C17. ioctl itself does not fail."
  },
  {
   "property": "C84",
   "status": "proved",
   "theorems": [
    "Verif.Sharing.C84_order",
    "Verif.Sharing.C84_copied",
    "Verif.Sharing.C84_careful",
    "Verif.Sharing.C84_untouched",
    "Verif.Sharing.C84_fixed",
    "Verif.Sharing.C84_control",
    "Verif.Sharing.C84_shared",
    "Verif.Sharing.C84_shared_false"
   ],
   "note": "Proved for every program when declared defaults are copied (C84_copied), and for every library when control bytes are assigned before they are changed in place (C84_careful). With a shared default the claim is false for other programs (C84_shared_false: cmd.control.naca = 1 on a WRITE(10) sets NACA in a READ(10) made later); C84_shared says exactly what every object sends then. Which of the three infi.instruct does is not visible from /repo. Explicitly giving two commands the same Control object, and changing bytearrays handed over as data, are left out; so is RECEIVE COPY RESULTS, whose control byte is a number. For the four commands that replace their control object when packed, careful means assigning again after each execution; their control byte is always zero (C84_fixed)."
  },
  {
   "property": "C85",
   "status": "partial",
   "theorems": [
    "Verif.Platform.Linux.C85_partial",
    "Verif.Platform.Linux.C85_one_each",
    "Verif.Platform.Linux.C85_in_order",
    "Verif.Platform.Linux.C85_false",
    "Verif.Commands.C85_visible",
    "Verif.Platform.Hosts.C85_hosts"
   ],
   "note": "Proved for users that wait for each command (C85_one_each), for devices that answer each user in order (C85_in_order), and in general for histories in which no packet number is reused while in use (C85_partial); false otherwise (C85_false, from C67_false). C85_visible: a read sent after the write was over sees it. Overlapping commands are modelled on Linux (sg), where executers can have them; C85_hosts has hosts on all platforms whose calls do not overlap. Devices whose sense data can be decoded (C57). Each user has an executer and memory of their own; threads sharing one executer are C86."
  },
  {
   "property": "C86",
   "status": "partial",
   "theorems": [
    "Verif.Threads.C86_partial",
    "Verif.Threads.C86_numbers",
    "Verif.Threads.C86_lock",
    "Verif.Threads.C86_lock_waits",
    "Verif.Threads.C86_false",
    "Verif.Threads.C86_write_false",
    "Verif.Threads.C86_hangs_false",
    "Verif.Threads.C86_timeout_false"
   ],
   "note": "Proved for all schedules in which packet numbers in use are distinct (C86_partial), which a lock in _next_packet_index gives while no command is outstanding for as long as the queue is long (C86_numbers); with a lock around call, as long as no call was given up, every call ends with its own answer or the error of its failed write and none is refused (C86_lock), and a call that finds nothing to read waits for a command that is at the device (C86_lock_waits). False without a lock (C86_false: a call returns a buffer nobody filled; C86_write_false: the failed write of one call makes another raise AttributeError although the device answered it; with any queue size). A lock in _next_packet_index alone is not enough for calls to return: a thread may block in os.read for ever or raise the time limit IOError although its result was delivered (C86_hangs_false, C86_timeout_false). Modelled for the sg executer of linux.py; any write may fail; sense data that can be decoded."
  },
  {
   "property": "C87",
   "status": "partial",
   "theorems": [
    "Verif.Heap.C87_partial",
    "Verif.Heap.C87_in_order",
    "Verif.Heap.C87_interrupted_false",
    "Verif.Heap.C87_interrupted_write_false",
    "Verif.Heap.C87_reuse_false"
   ],
   "note": "Proved for every allocator, program, device and order of completion as long as no packet number is reused while in use and no send is interrupted after its write (C87_partial); devices that answer in order need no condition on numbers (C87_in_order). False when an exception (a signal handler, a timeout or kill of the greenlet in gevent_friendly) comes after the write: the bare except of send gives up the buffers the driver still has, and the device writes into whatever object gets the memory (C87_interrupted_false) or is sent the bytes of such an object (C87_interrupted_write_false). False when a number is reused (C87_reuse_false). Devices whose sense data can be decoded (C57). The memory of Python objects other than the buffers is left out."
  },
  {
   "property": "C88",
   "status": "partial",
   "theorems": [
    "Verif.Parse.Ses.C88_partial",
    "Verif.Parse.Ses.C88_descriptors_partial",
    "Verif.Parse.Ses.C88_stale",
    "Verif.Parse.Ses.C88_false"
   ],
   "note": "If the caller compares the generation code of the page with that of the configuration, every element comes with its own type and status (C88_partial) or text (C88_descriptors_partial). The library does not compare: whatever configuration it is given, as long as that needs no more bytes than the page has, it decodes the page without complaint and reports the types of the old configuration (C88_stale), so the status of a temperature sensor is reported as that of a fan (C88_false)."
  },
  {
   "property": "C89",
   "status": "partial",
   "theorems": [
    "Verif.Messages.C89_linux_partial",
    "Verif.Messages.C89_linux_host_partial",
    "Verif.Messages.C89_linux_host_false",
    "Verif.Messages.C89_linux_driver_false",
    "Verif.Messages.C89_linux_driver_lost_false",
    "Verif.Messages.C89_aix_partial",
    "Verif.Messages.C89_aix_false",
    "Verif.Messages.C89_aix_invalid",
    "Verif.Messages.C89_solaris_partial",
    "Verif.Messages.C89_solaris_false",
    "Verif.Messages.C89_win32",
    "Verif.Messages.C89_sense",
    "Verif.Messages.C89_sense_linux",
    "Verif.Messages.C89_sense_solaris",
    "Verif.Messages.C89_sense_aix",
    "Verif.Messages.C89_sense_windows"
   ],
   "note": "Windows, invalid arguments on AIX, and the sense data of a CHECK CONDITION on all platforms (whatever repr of the sense object gives): proved. Linux: right when the device reports a status (C89_linux_partial) and for the driver and host status of a failing host (C89_linux_host_partial). False: a failing host is told the SCSI status as its host status (C89_linux_host_false), a failing driver is told the SCSI status as driver status and the driver status as host status (C89_linux_driver_false), and the host status is not told at all (C89_linux_driver_lost_false). AIX: right for statuses within the mask 1Eh; TASK SET FULL is told as BUSY (C89_aix_false). Solaris: the reason is always told as 0 (C89_solaris_false)."
  },
  {
   "property": "C90",
   "status": "partial",
   "theorems": [
    "Verif.Names.C90_distinct",
    "Verif.Names.C90_device",
    "Verif.Names.C90_version_partial",
    "Verif.Names.C90_version_false",
    "Verif.Names.C90_pages_partial",
    "Verif.Names.C90_pages_false",
    "Verif.Names.C90_designators_distinct",
    "Verif.Names.C90_lookups",
    "Verif.Names.C90_later",
    "Verif.Names.C90_lookups_partial",
    "Verif.Names.C90_lookups_false",
    "Verif.Names.C90_designators_partial",
    "Verif.Names.C90_code_set_false",
    "Verif.Names.C90_elements_partial",
    "Verif.Names.C90_elements_false"
   ],
   "note": "Device types, designator types, associations and fan speeds: every value has its name, whatever the device sends and whatever was looked up before; in all tables different values have different names. False: later versions, reserved code sets, status codes and element types, other pages and pages B0h to B3h of other device types raise KeyError; and the dictionary of designator types grows with every lookup, so get and in answer differently after somebody has looked a reserved type up."
  },
  {
   "property": "C91",
   "status": "proved",
   "theorems": [
    "Verif.Platform.Win32.C91_overlapped",
    "Verif.Platform.Win32.C91_array",
    "Verif.Platform.Win32.C91_code"
   ],
   "note": "Handles are those Windows documents: 32 significant bits, the rest sign extension; ctypes takes what CreateEventW returns for a C int, and packing it as a pointer gives the handle back. struct.pack in native mode is modelled as documented."
  },
  {
   "property": "C92",
   "status": "partial",
   "theorems": [
    "Verif.Platform.Win32.C92_exact",
    "Verif.Platform.Win32.C92_partial",
    "Verif.Platform.Win32.C92_false",
    "Verif.Platform.Win32.C92_exhausted"
   ],
   "note": "True of synchronous files, for all programs. False of asynchronous ones: every request creates an event that nothing closes, so the handles left are exactly the events created (C92_exact, C92_false). On a system with a limit, using and closing one device after the other ends with null events, unnoticed (C92_exhausted)."
  },
  {
   "property": "C93",
   "status": "partial",
   "theorems": [
    "Verif.Files.C93_windows",
    "Verif.Files.C93_windows_told",
    "Verif.Files.C93_windows_close_again",
    "Verif.Files.C93_unix_partial",
    "Verif.Files.C93_unix_told_partial",
    "Verif.Files.C93_exact",
    "Verif.Files.C93_false"
   ],
   "note": "Proved for all programs on Windows, where close forgets the handle. On Unix close keeps the descriptor: proved for programs that leave closed objects alone; otherwise the object acts on whatever file has the number by then (C93_exact), for instance the file of other code, which it writes to and closes (C93_false)."
  },
  {
   "property": "C94",
   "status": "partial",
   "theorems": [
    "Verif.Platform.Linux.C94_partial",
    "Verif.Platform.Linux.C94_false",
    "Verif.Platform.Linux.viaFile_read"
   ],
   "note": "Proved for descriptors below 1024. From there on select.select raises ValueError after the command was written: as many commands as the queue has room for are carried out, none is ever answered, later ones raise NameError (C94_false, for all devices, queue sizes and sequences of commands)."
  },
  {
   "property": "C95",
   "status": "partial",
   "theorems": [
    "Verif.Commands.Cluster.C95_told",
    "Verif.Commands.Cluster.C95_partial",
    "Verif.Commands.Cluster.C95_lock_partial",
    "Verif.Commands.Cluster.C95_false"
   ],
   "note": "Proved for all clusters of Linux (sg), Solaris, AIX and Windows computers. A computer that uses linux_dm is told that its COMPARE AND WRITE succeeded whatever the disk said: it takes a lock that another computer holds (C95_false); what happens with such computers in the cluster is C95_told. Commands are atomic at the disk."
  },
  {
   "property": "C96",
   "status": "partial",
   "theorems": [
    "Verif.Commands.Fencing.C96_partial",
    "Verif.Commands.Fencing.C96_off",
    "Verif.Commands.Fencing.C96_fences",
    "Verif.Commands.Fencing.C96_told",
    "Verif.Commands.Fencing.C96_served",
    "Verif.Commands.Fencing.C96_false"
   ],
   "note": "Proved for all clusters, if the computer that preempts does not use linux_dm; that the fenced computer is told is proved if it does not use linux_dm either. With linux_dm a PREEMPT that the disk refused returns like one that was done, and a fenced computer is told that its writes were done (C96_false). Commands are atomic at the disk; PREEMPT AND ABORT aborts nothing in the model, since no command is in flight."
  },
  {
   "property": "C97",
   "status": "proved",
   "theorems": [
    "Verif.Bounds.C97_ends",
    "Verif.Bounds.C97_entries",
    "Verif.Bounds.C97_sense"
   ],
   "note": "The loops of the library of buffers (infi.instruct) are specified without a guard (Reads, ReadsSize); the model has one, and C97_ends shows that it is never used. Entries are counted in all lists and lists of lists; bytes of texts are not. The decoder of diagnostic pages without a class is external. Time is not modelled."
  },
  {
   "property": "C98",
   "status": "proved",
   "theorems": [
    "Verif.Commands.Clients.C98_linux",
    "Verif.Commands.Clients.C98_solaris",
    "Verif.Commands.Clients.C98_aix",
    "Verif.Commands.Clients.C98_windows",
    "Verif.Commands.Clients.C98_disk_linux",
    "Verif.Commands.Clients.C98_disk_solaris",
    "Verif.Commands.Clients.C98_disk_aix",
    "Verif.Commands.Clients.C98_disk_windows",
    "Verif.Commands.Clients.C98_keys_linux",
    "Verif.Commands.Clients.C98_keys_solaris",
    "Verif.Commands.Clients.C98_keys_aix",
    "Verif.Commands.Clients.C98_keys_windows"
   ],
   "note": "A program is a function from its state and the last result to a command or an end (Spec/Client); it executes its commands one after the other with sync_wait. Requests must fit the memory of the platform (as in C51). Program errors outside the commands are not modelled; programs that use several executers are C101. For READ FULL STATUS the same loop cannot be written, required_allocation_length raises NameError (C35_full_status_length_false)."
  },
  {
   "property": "C99",
   "status": "partial",
   "theorems": [
    "Verif.Commands.Cluster.C99_partial",
    "Verif.Commands.Cluster.C99_false"
   ],
   "note": "Holds for computers that use sg, Solaris, AIX or Windows; the computers that do other things may use any executer. False when a computer that updates goes through linux_dm, which does not look at the status: it is told that its exchange was done when it was not (C99_false). The program is one that a user of the library writes; one command at a time per computer, as in C95."
  },
  {
   "property": "C100",
   "status": "partial",
   "theorems": [
    "Verif.Heap.C100_partial",
    "Verif.Heap.C100_alone",
    "Verif.Heap.C100_in_order",
    "Verif.Heap.C100_interrupted_false",
    "Verif.Heap.C100_reuse_false"
   ],
   "note": "Holds as long as at no executer a packet number is reused while in use (always so with devices that answer in order, C100_in_order) and no send is interrupted once the operating system has the command. Otherwise false: the user of one device is told the data of another (C100_interrupted_false, C100_reuse_false). The devices are separate; several users of one device are C85."
  },
  {
   "property": "C101",
   "status": "proved",
   "theorems": [
    "Verif.Commands.Clients.C101_linux",
    "Verif.Commands.Clients.C101_solaris",
    "Verif.Commands.Clients.C101_aix",
    "Verif.Commands.Clients.C101_windows",
    "Verif.Commands.Clients.C101_copy_linux",
    "Verif.Commands.Clients.C101_copy_solaris",
    "Verif.Commands.Clients.C101_copy_aix",
    "Verif.Commands.Clients.C101_copy_windows"
   ],
   "note": "The devices are separate from each other, and the program has one command outstanding at a time; the memory of the process is one. Requests must fit the memory of the platform (as in C51). That the program with several commands outstanding at several devices is not disturbed by the others is C100."
  },
  {
   "property": "C102",
   "status": "proved",
   "theorems": [
    "Verif.Commands.Clients.C102_linux",
    "Verif.Commands.Clients.C102_solaris",
    "Verif.Commands.Clients.C102_aix",
    "Verif.Commands.Clients.C102_windows",
    "Verif.Commands.Clients.C102_ends"
   ],
   "note": "The unit attentions are those of persistent reservations (2Ah/03h to 05h); the program looks at sense_key only. Repeating after other exceptions is another matter: a command that was given up or interrupted may have been carried out (C73)."
  },
  {
   "property": "C103",
   "status": "proved",
   "theorems": [
    "Verif.Journal.C103_linux",
    "Verif.Journal.C103_solaris",
    "Verif.Journal.C103_aix",
    "Verif.Journal.C103_windows",
    "Verif.Journal.C103_unforced_false"
   ],
   "note": "The last theorem is the last sentence of the statement. The program is stopped between commands; a command that was under way when the program was stopped has been carried out or not, and both are covered, since the program may be stopped before it or after it. A write of several blocks of which only some were carried out is not in the disk of the specification."
  },
  {
   "property": "C104",
   "status": "proved",
   "theorems": [
    "Verif.Torn.C104_linux",
    "Verif.Torn.C104_solaris",
    "Verif.Torn.C104_aix",
    "Verif.Torn.C104_windows",
    "Verif.Torn.C104_inplace_false"
   ],
   "note": "The last theorem is the last sentence of the statement. small_lived shows that there is such a history for all data and all stops."
  },
  {
   "property": "C105",
   "status": "proved",
   "theorems": [
    "Verif.Commands.Clients.Aborted.C105_linux",
    "Verif.Commands.Clients.Aborted.C105_solaris",
    "Verif.Commands.Clients.Aborted.C105_aix",
    "Verif.Commands.Clients.Aborted.C105_windows",
    "Verif.Commands.Clients.Aborted.C105_swap_linux",
    "Verif.Commands.Clients.Aborted.C105_swap_solaris",
    "Verif.Commands.Clients.Aborted.C105_swap_aix",
    "Verif.Commands.Clients.Aborted.C105_swap_windows",
    "Verif.Commands.Clients.Aborted.C105_exchange_false"
   ],
   "note": "The last theorem is the third sentence of the statement, the C105_swap theorems are the last."
  },
  {
   "property": "C106",
   "status": "proved",
   "theorems": [
    "Verif.Commands.Clients.Paths.C106_linux",
    "Verif.Commands.Clients.Paths.C106_solaris",
    "Verif.Commands.Clients.Paths.C106_aix",
    "Verif.Commands.Clients.Paths.C106_windows"
   ],
   "note": "That each command is carried out once is in the comparison with a program on an array of bytes, where it is."
  },
  {
   "property": "C107",
   "status": "proved",
   "theorems": [
    "Verif.Commands.Clients.Link.C107_session",
    "Verif.Commands.Clients.Link.C107_programs"
   ],
   "note": "What each caller is told is Spec.Link.told, stated with the fields of sg_io_hdr. As in C51, sense data that cannot be decoded is excluded."
  },
  {
   "property": "C108",
   "status": "partial",
   "theorems": [
    "Verif.Commands.Clients.Refused.C108_linux",
    "Verif.Commands.Clients.Refused.C108_solaris",
    "Verif.Commands.Clients.Refused.C108_aix_partial",
    "Verif.Commands.Clients.Refused.C108_windows",
    "Verif.Commands.Clients.Refused.C108_linux_programs",
    "Verif.Commands.Clients.Refused.C108_solaris_programs",
    "Verif.Commands.Clients.Refused.C108_aix_programs_partial",
    "Verif.Commands.Clients.Refused.C108_windows_programs",
    "Verif.Commands.Clients.Refused.C108_aix_false"
   ],
   "note": "Proved on Linux (sg), Solaris, Windows, and AIX with fcntl.ioctl. Missing: AIX with the ioctl of libc, for which it is false (C108_aix_false): the return value -1 is not looked at. As in C51, sense data that cannot be decoded is excluded."
  },
  {
   "property": "C109",
   "status": "proved",
   "theorems": [
    "Verif.Commands.Clients.Ports.C109_linux",
    "Verif.Commands.Clients.Ports.C109_solaris",
    "Verif.Commands.Clients.Ports.C109_aix",
    "Verif.Commands.Clients.Ports.C109_windows"
   ],
   "note": "The requests fit the buffers (hfit), the designators fit the 252 bytes of the command and the groups its allocation length, the groups are less than 128 ports in size where instruct reads signed fields. NAA designators only where the bit fields are read low bits first, as in C43."
  },
  {
   "property": "C110",
   "status": "partial",
   "theorems": [
    "Verif.Commands.Clients.Ledger.C110_linux",
    "Verif.Commands.Clients.Ledger.C110_solaris",
    "Verif.Commands.Clients.Ledger.C110_aix_partial",
    "Verif.Commands.Clients.Ledger.C110_windows",
    "Verif.Commands.Clients.Ledger.C110_aix_false",
    "Verif.Commands.Clients.Ledger.C110_unmarked_false"
   ],
   "note": "Proved on Linux (sg), Solaris and Windows and on AIX with fcntl. C110_aix_false: with libc, which the library prefers, the failed call of COMPARE AND WRITE is not noticed and the program takes an update for made that the disk never got. C110_unmarked_false: a program that does not look at what the block says of its updates makes one twice."
  },
  {
   "property": "C111",
   "status": "proved",
   "theorems": [
    "Verif.Commands.Clients.Mapped.C111_told",
    "Verif.Commands.Clients.Mapped.C111_good",
    "Verif.Commands.Clients.Mapped.C111_calls",
    "Verif.Commands.Clients.Mapped.C111_search_false"
   ],
   "note": "C111_search_false is the last sentence of the property: it shows what C111_told means for a program that relies on errors. The requests fit the buffers (hfit)."
  },
  {
   "property": "C112",
   "status": "partial",
   "theorems": [
    "Verif.Platform.Linux.Linked.C112_partial",
    "Verif.Platform.Linux.Linked.C112_in_order",
    "Verif.Platform.Linux.Linked.C112_false",
    "Verif.Platform.Linux.Linked.C112_lost_false"
   ],
   "note": "Proved when no command is given to the driver with the packet number of one outstanding (NoWrap); for devices that answer in order that is so if the driver takes every command (C112_in_order). The code violates the property otherwise, because a send that fails uses up a packet number and deletes the pending entry of that number whoever it belongs to: C112_false and C112_lost_false, with a device that answers in order."
  },
  {
   "property": "C113",
   "status": "partial",
   "theorems": [
    "Verif.Platform.Linux.Linked.C113_partial",
    "Verif.Platform.Linux.Linked.C113_one_each",
    "Verif.Platform.Linux.Linked.C113_in_order",
    "Verif.Platform.Linux.Linked.C113_false",
    "Verif.Commands.C113_visible"
   ],
   "note": "Proved for users that wait for each command (C113_one_each), for devices that answer each user in order if the drivers take every command (C113_in_order), and in general for histories in which no command is given to the driver with the packet number of one of the same user that is outstanding (C113_partial); false otherwise, even for devices that answer in order (C113_false, from C112_false). C113_visible: on a disk whose ways lose commands and reports, a read sent after a write of the same data was over without an error sees it or is told an error. Devices whose sense data can be decoded (C57)."
  },
  {
   "property": "C114",
   "status": "partial",
   "theorems": [
    "Verif.Parse.C114_elements_partial",
    "Verif.Parse.C114_enclosure_false",
    "Verif.Parse.C114_capabilities",
    "Verif.Parse.C114_reservation",
    "Verif.Parse.C114_keys",
    "Verif.Parse.C114_copy",
    "Verif.Parse.C114_groups",
    "Verif.Parse.C114_groups_extended",
    "Verif.Parse.C114_reservation_standard",
    "Verif.Parse.C114_capabilities_standard",
    "Verif.Parse.C114_keys_standard",
    "Verif.Parse.C114_copy_standard",
    "Verif.Parse.C114_groups_standard",
    "Verif.Parse.C114_full_status",
    "Verif.Parse.C114_transport",
    "Verif.Parse.C114_transport_back"
   ],
   "note": "Proved for all the classes named but the element of the enclosure itself (type 0Eh), three of whose attributes have the places of three others: no bytes at all read back as it (C114_enclosure_false). additional_length, data_length and target_port_count have to be assigned by the caller; the length of the list of descriptors is computed. Full status: at least one descriptor (without any, the list is not read at all), reserved bits 0. TargetPortGroupExtendedResponse puts the list at byte 7 where the standard has byte 8 (C39): the bytes read back but are not those of the standard. The bytes of the other classes are (the _standard theorems; status elements: see C46 for how they are read)."
  },
  {
   "property": "C115",
   "status": "partial",
   "theorems": [
    "Verif.Platform.Win32.Ahead.C115_refines",
    "Verif.Platform.Win32.Ahead.C115_own",
    "Verif.Platform.Win32.Ahead.C115_partial",
    "Verif.Platform.Win32.Ahead.C115_false"
   ],
   "note": "Proved: exactly what happens in every program, whichever calls fail (C115_refines); no mix-ups, callbacks at most once and never for a failing command, nothing but the system error raised (C115_own); as long as at most as many commands as the queue has room for, failing ones included, are given between one wait and the next, none is refused and every accepted command has its callback called (C115_partial). Missing: without a wait, failing sends use up packet numbers, and the one that comes round to the number of an outstanding command deletes that command from the table: its callback is never called although the device executed it (C115_false, for every queue size from 2 on)."
  },
  {
   "property": "C116",
   "status": "partial",
   "theorems": [
    "Verif.Platform.Linux.Ahead.C116_refines",
    "Verif.Platform.Linux.Ahead.C116_own",
    "Verif.Platform.Linux.Ahead.C116_one_partial",
    "Verif.Platform.Linux.Ahead.C116_false"
   ],
   "note": "Proved: exactly what happens in every program, whichever calls fail (C116_refines); no mix-ups, callbacks at most once and never for a failing command, nothing raised but the system error and AttributeError (C116_own); with queue size 1, as linux_dm makes the executer, only the system error is raised and after a wait every accepted command has had its callback called (C116_one_partial). Missing: other queue sizes, where one failing send makes the callback of the command before it be lost for ever and wait raise AttributeError (C116_false, for every queue size from 2 on)."
  },
  {
   "property": "C117",
   "status": "partial",
   "theorems": [
    "Verif.Platform.Single.C117_solaris",
    "Verif.Platform.Single.C117_solaris_told",
    "Verif.Platform.Single.C117_solaris_refines",
    "Verif.Platform.Single.C117_aix_partial",
    "Verif.Platform.Single.C117_aix_refines_partial",
    "Verif.Platform.Single.C117_aix_told_partial",
    "Verif.Platform.Single.C117_aix_false"
   ],
   "note": "Proved on Solaris, and on AIX where ioctl is that of fcntl. Missing: AIX with the ioctl of libc, where a call that failed goes unnoticed and a write is told to have gone well (C117_aix_false, for every write and every failure). Other queue sizes are the subject of C80."
  }
 ]
}
{"id": "C01", "title": "Every callback receives the response to its own command, exactly once", "statement": "Whatever sequence of send() calls and device completions happens on one command executer, each command that was accepted has its callback invoked at most once, only with the response the device produced for that very command, and it is invoked when that response is processed.", "quantifier": "all queue sizes, all histories of send() (successful, failing to prepare, failing in the OS) and of completions delivered in any order", "why_tests_cant": "The mapping from packet number to waiting caller is reused modulo the queue size; whether a number is reused while still in flight depends on the whole history and on the completion order chosen by the device, which no finite set of runs covers.", "anchors": ["src/infi/asi/__init__.py: CommandExecuterBase.send, _next_packet_index, _process_pending_response"]}
{"id": "C02", "title": "Serial use and FIFO devices never misdeliver", "statement": "If commands are only issued one at a time (max_queue_size=1, or every command is completed before the next is sent), or the device completes commands in the order in which they were sent and no send fails, then every callback receives exactly its own response, for ever.", "quantifier": "all queue sizes, all unbounded histories satisfying the stated usage discipline", "why_tests_cant": "The counter wraps around every max_queue_size sends, so a failure may need arbitrarily long histories; a test sees only short ones.", "anchors": ["src/infi/asi/__init__.py: CommandExecuterBase", "src/infi/asi/linux.py: LinuxIoctlCommandExecuter", "src/infi/asi/aix.py: AixCommandExecuter", "src/infi/asi/solaris.py: SolarisCommandExecuter"]}
{"id": "C03", "title": "The number of outstanding commands never exceeds max_queue_size, and a refused send has no effect", "statement": "At every moment at most max_queue_size commands are outstanding; is_queue_full() is true exactly when max_queue_size are; a send() on a full queue raises and leaves the outstanding commands, the future packet numbers and the device untouched.", "quantifier": "all queue sizes and all histories of send/receive/failure", "why_tests_cant": "It is an invariant of every reachable state, including those after failures and out-of-order completions.", "anchors": ["src/infi/asi/__init__.py: CommandExecuterBase._next_packet_index, is_queue_full, send"]}
{"id": "C04", "title": "A failed send leaves no trace in the queue", "statement": "If preparing or transmitting a command raises, the exception reaches the caller, the failed command's callback is never invoked and every other outstanding command remains outstanding and still receives its own response.", "quantifier": "all executer states reachable by any history, all failing commands", "why_tests_cant": "Depends on the interaction between the packet counter and every set of packets in flight at the failure.", "anchors": ["src/infi/asi/__init__.py: CommandExecuterBase.send"]}
{"id": "C05", "title": "wait() returns only when everything sent has completed", "statement": "wait() returns exactly when no command is outstanding; if the device answers every outstanding command once (in any order) wait() consumes exactly those answers, invokes every outstanding callback exactly once and then returns.", "quantifier": "all sets of outstanding commands and all answer orders (permutations) of any size", "why_tests_cant": "Permutations of answers grow factorially and the loop length is unbounded.", "anchors": ["src/infi/asi/__init__.py: CommandExecuterBase.wait, is_queue_empty, _process_pending_response"]}
{"id": "C06", "title": "call() returns the response to its own command", "statement": "call(command) returns the data (or raises the error) that the device produced for that command, even when other commands are outstanding and complete first; those other commands' callbacks are invoked with their own responses on the way.", "quantifier": "all sets of previously outstanding commands, all completion orders, all responses", "why_tests_cant": "Unbounded number of interleaved completions before the own one.", "anchors": ["src/infi/asi/__init__.py: CommandExecuterBase.call"]}
{"id": "C07", "title": "An unsolicited response is reported and disturbs nobody", "statement": "When the device returns a response whose packet number belongs to no outstanding command, an internal error is raised, no callback is invoked and every outstanding command stays outstanding.", "quantifier": "all executer states and all packet numbers", "why_tests_cant": "Arbitrary adversarial packet numbers against arbitrary queue states.", "anchors": ["src/infi/asi/__init__.py: CommandExecuterBase._process_pending_response"]}
{"id": "C08", "title": "A callback gets either data or an error, never both, and errors are never passed as data", "statement": "Each callback invocation is callback(data, None) for a successful completion and callback(None, error) for a failed one, and call() returns normally only in the first case.", "quantifier": "all responses of all platforms, all histories", "why_tests_cant": "Ranges over all device responses.", "anchors": ["src/infi/asi/__init__.py: CommandExecuterBase._process_pending_response, call"]}
{"id": "C09", "title": "Driving nested coroutines is the same as calling them directly", "statement": "sync_wait(g) performs the same side effects in the same order and ends with the same outcome as the direct-style program in which `x = yield child()` is the call x = child(), `yield value` evaluates to value, and the value of a coroutine is the value of its last yield expression.", "quantifier": "all generator programs of any nesting depth and length, including non-terminating ones (neither side terminates)", "why_tests_cant": "Quantifies over every program written against the API.", "anchors": ["src/infi/asi/coroutines/sync_adapter.py: Coroutine._next_step, loop, SyncCoroutine, sync_wait"]}
{"id": "C10", "title": "Exceptions propagate to the innermost handler and a handled exception stays handled", "statement": "An exception raised in a nested coroutine is thrown at the yield expression of the coroutine that called it, and so on outwards, until one handles it; if none does, sync_wait raises it; once a coroutine has handled it, its callers never see it.", "quantifier": "all generator programs, all nesting depths, all places to raise and to handle", "why_tests_cant": "Quantifies over every program written against the API.", "anchors": ["src/infi/asi/coroutines/sync_adapter.py: Coroutine._next_step"]}
{"id": "C11", "title": "sync_call runs the coroutine once", "statement": "sync_call(f, args) has exactly the side effects of one run of f(args) although it instantiates the generator twice, and gives the result of sync_wait.", "quantifier": "all generator functions and arguments", "why_tests_cant": "Side effects of arbitrary programs.", "anchors": ["src/infi/asi/coroutines/sync_adapter.py: sync_call"]}
{"id": "C12", "title": "sync_wait returns the last value yielded", "statement": "When the outermost coroutine's last yield is a plain value, sync_wait returns that value; in particular it never returns a generator object or an I/O token in that case.", "quantifier": "all generator programs whose last yield is a plain value", "why_tests_cant": "Quantifies over every program.", "anchors": ["src/infi/asi/coroutines/sync_adapter.py: Coroutine.loop, get_result"]}
{"id": "C13", "title": "The asynchronous reactor returns each command's own result in argument order", "statement": "wait_for(c1..cn) returns [r1..rn] where ri is what running ci alone synchronously returns, whatever the order in which the operating system signals completions.", "quantifier": "all numbers of commands, all coroutine programs over independent devices, all completion schedules", "why_tests_cant": "The number of schedules is exponential in the number of I/Os.", "anchors": ["src/infi/asi/win32.py: Win32AsyncReactor.wait_for, _wait_for_events", "src/infi/asi/coroutines/sync_adapter.py: AsyncCoroutine"]}
{"id": "C14", "title": "The reactor finishes and never resumes a coroutine whose I/O is still pending", "statement": "If every command alone finishes after finitely many I/Os then wait_for returns after exactly the total number of I/O completions, for every completion schedule, and a coroutine is resumed only when its own I/O was signalled.", "quantifier": "all completion schedules, all numbers of commands and I/Os", "why_tests_cant": "Schedules are unbounded.", "anchors": ["src/infi/asi/win32.py: Win32AsyncReactor.wait_for, _wait_for_events"]}
{"id": "C15", "title": "Linux: a failed command is never reported as success", "statement": "On the sg device, a response whose SCSI status, host status or driver status code is non-zero is always reported as an exception; a response is reported as success exactly if all three are zero; whenever the check-condition bit or the driver-sense flag is set the exception is AsiCheckConditionError carrying the full sense buffer.", "quantifier": "all values of the status fields (2^8 x 2^16 x 2^16)", "why_tests_cant": "2^40 combinations with ordered overlapping tests.", "anchors": ["src/infi/asi/linux.py: LinuxCommandExecuter._handle_raw_response"]}
{"id": "C16", "title": "Linux: a reservation conflict is reported as AsiReservationConflictError", "statement": "A response with SCSI status RESERVATION CONFLICT (18h) and no transport error is reported as AsiReservationConflictError, and nothing else is.", "quantifier": "all values of the status fields", "why_tests_cant": "The code tests the wrong field; only reasoning about all combinations shows when the error can be produced at all.", "anchors": ["src/infi/asi/linux.py: LinuxCommandExecuter._handle_raw_response lines 240-250"]}
{"id": "C17", "title": "Linux dm: failures reported by the kernel reach the caller", "statement": "With the ioctl based executer (linux_dm), a command that the kernel completes with a non-zero SCSI, host or driver status raises an exception.", "quantifier": "all kernel completions", "why_tests_cant": "Whether the kernel's answer is read at all depends on buffer mutability semantics; no mock shows it.", "anchors": ["src/infi/asi/linux.py: LinuxIoctlCommandExecuter._os_send, _os_receive", "src/infi/asi/executers.py: linux_dm"]}
{"id": "C18", "title": "The request handed to the OS describes the command exactly", "statement": "On every platform the request block carries the command's CDB bytes and length, transfers from the device with the full response length for read commands with a positive length, to the device with exactly the command's data for write commands, and moves no data otherwise.", "quantifier": "all CDBs (accepted lengths), all data, all response lengths, four platforms", "why_tests_cant": "Unbounded byte strings; boundary conditions on lengths.", "anchors": ["src/infi/asi/linux.py: SGIO.create", "src/infi/asi/win32.py: SCSIPassThroughDirect.create", "src/infi/asi/aix.py: sc_passthru.create", "src/infi/asi/solaris.py: SCSICMD.create"]}
{"id": "C19", "title": "Windows: statuses are classified completely and data is cut to the transferred length", "statement": "ScsiStatus 0 gives success with at most DataTransferLength bytes of the data buffer, ScsiStatus 2 gives AsiCheckConditionError, any other status AsiSCSIError.", "quantifier": "all statuses, transfer lengths and data buffers", "why_tests_cant": "All values of several fields.", "anchors": ["src/infi/asi/win32.py: Win32CommandExecuter._os_receive"]}
{"id": "C20", "title": "AIX: a failed command is never reported as success", "statement": "A completion with valid SCSI or adapter status raises; a successful one returns the data buffer of a read; an ioctl refused by the driver raises AsiOSError.", "quantifier": "all status fields, all commands, both ioctl bindings", "why_tests_cant": "All field combinations; two different ioctl bindings.", "anchors": ["src/infi/asi/aix.py: AixCommandExecuter._os_send, _handle_raw_response"]}
{"id": "C21", "title": "Solaris: a failed command is never reported as success", "statement": "A completion with non-zero SCSI status or request-sense status raises and check condition gives AsiCheckConditionError; success returns the data buffer of a read.", "quantifier": "all values of the status fields, all commands", "why_tests_cant": "All field combinations.", "anchors": ["src/infi/asi/solaris.py: SolarisCommandExecuter._handle_raw_response"]}
{"id": "C22", "title": "Request blocks have the memory layout the operating system expects", "statement": "Every field of the sg_io_hdr, SCSI_PASS_THROUGH_DIRECT, uscsi_cmd and sc_passthru blocks sits at the offset and has the size that the C declaration quoted in the sources has under natural alignment, on 32- and 64-bit Windows and on 64-bit Unix; fields never overlap.", "quantifier": "all fields of all structures; the non-overlap law ranges over all structure declarations", "why_tests_cant": "A misplaced field is only visible on the real OS.", "anchors": ["src/infi/asi/linux.py: SGIO", "src/infi/asi/win32.py: SCSIPassThroughDirect", "src/infi/asi/solaris.py: SCSICMD", "src/infi/asi/aix.py: sc_passthru"]}
{"id": "C23", "title": "The device handle is closed exactly once however the with-block ends", "statement": "For each of the executer context managers, once the device was opened the handle is closed exactly once, after the with-block, whether the block ends normally or by any exception, and the block's exception is propagated.", "quantifier": "all with-block behaviours, including failure to build the executer", "why_tests_cant": "Ranges over all exit paths.", "anchors": ["src/infi/asi/executers.py: windows, linux_dm, linux_sg, solaris, aix"]}
{"id": "C24", "title": "UnixFile.read waits at most its timeout and never times out on ready data", "statement": "read() returns data as soon as a poll finds the descriptor readable, raises IOError only after the configured time has passed without readiness, and with a clock advancing at each sleep it always ends.", "quantifier": "all readiness patterns and all monotone clocks", "why_tests_cant": "Timing dependent and unbounded.", "anchors": ["src/infi/asi/unix.py: UnixFile.read"]}
{"id": "C25", "title": "Every CDB has the length its operation code announces", "statement": "The datagram of every command built by the library has the length that COMMAND_SIZE_BY_GROUP_CODE gives for the group code in its first byte, for all arguments.", "quantifier": "all commands and all accepted arguments", "why_tests_cant": "All arguments of two dozen commands.", "anchors": ["src/infi/asi/cdb/operation_code.py: OperationCode", "src/infi/asi/cdb/"]}
{"id": "C26", "title": "READ commands ask for the blocks requested", "statement": "READ(6/10/12/16) built with an in-range address and block count encodes exactly that address and count at the positions the standard defines with all other bits zero, and reads count x block_size bytes.", "quantifier": "all addresses, counts and block sizes", "why_tests_cant": "2^96 argument combinations for READ(16).", "anchors": ["src/infi/asi/cdb/read.py"]}
{"id": "C27", "title": "READ(6) with a zero count reads 256 blocks", "statement": "READ(6) with transfer_length 0 asks the device for 256 blocks, so the response buffer must hold 256 x block_size bytes.", "quantifier": "all block sizes and addresses", "why_tests_cant": "Ranges over all block sizes.", "anchors": ["src/infi/asi/cdb/read.py: Read6Command.execute"]}
{"id": "C28", "title": "WRITE commands announce exactly the blocks in the buffer", "statement": "WRITE(6/10/12/16) is accepted only if the buffer is a whole number of blocks within the command's limit, and then encodes the given address and exactly len(buffer)/block_size blocks (256 encoded as 0 in WRITE(6)); the data sent is the buffer unchanged.", "quantifier": "all addresses, buffers and block sizes", "why_tests_cant": "All buffer lengths and block sizes.", "anchors": ["src/infi/asi/cdb/write.py"]}
{"id": "C29", "title": "Out-of-range arguments are refused, never truncated", "statement": "If an address, count or length argument does not fit its field (or is negative) no CDB is produced; equivalently two accepted argument tuples giving the same CDB are equal.", "quantifier": "all integers", "why_tests_cant": "All integers for every field of every command.", "anchors": ["src/infi/asi/cdb/read.py", "src/infi/asi/cdb/write.py", "src/infi/asi/cdb/write_same.py", "src/infi/asi/cdb/compare_and_write.py", "src/infi/asi/cdb/unmap.py", "src/infi/asi/cdb/inquiry/__init__.py", "src/infi/asi/cdb/report_luns.py"]}
{"id": "C30", "title": "WRITE SAME encodes address and block count, with one block of data", "statement": "WRITE SAME(10/16) encodes the given address and number of blocks; the data-out buffer is exactly one logical block.", "quantifier": "all addresses, block counts, block sizes, buffers", "why_tests_cant": "All block sizes and buffer lengths.", "anchors": ["src/infi/asi/cdb/write_same.py"]}
{"id": "C31", "title": "COMPARE AND WRITE carries two equally long halves matching its block count", "statement": "COMPARE AND WRITE encodes address and number of blocks n; the data-out buffer is 2 x n x block_size bytes.", "quantifier": "all addresses, counts, buffers, block sizes", "why_tests_cant": "All buffer lengths.", "anchors": ["src/infi/asi/cdb/compare_and_write.py"]}
{"id": "C32", "title": "UNMAP sends exactly the ranges given", "statement": "The parameter list sent by UNMAP decodes (by the standard's layout) to exactly the list of (address, count) ranges given, in order, with consistent length fields; a list that does not fit is refused.", "quantifier": "all lists of ranges of any length", "why_tests_cant": "Unbounded lists; overflow of 16-bit lengths.", "anchors": ["src/infi/asi/cdb/unmap.py"]}
{"id": "C33", "title": "RESERVE/RELEASE identify the third party device exactly", "statement": "RESERVE(10)/RELEASE(10) with a third party id use the short form for ids up to 254, the 8-byte parameter list for larger ids below 2^64 and plain form otherwise; the id decoded from CDB and parameter list is the one given.", "quantifier": "all integer ids", "why_tests_cant": "All 2^64 ids and the boundary at 255.", "anchors": ["src/infi/asi/cdb/reserve.py", "src/infi/asi/cdb/release.py"]}
{"id": "C34", "title": "PERSISTENT RESERVE OUT transmits keys, type and flags as requested", "statement": "The CDB carries service action, type and the parameter list length; the parameter list carries the reservation key, service action key and the APTPL / ALL_TG_PT / SPEC_I_PT flags as requested; for REGISTER AND MOVE also the relative port id and the transport id with its length.", "quantifier": "all keys, types, service actions, flags and transport ids of any length", "why_tests_cant": "2^128 keys, unbounded transport ids.", "anchors": ["src/infi/asi/cdb/persist/output.py", "src/infi/asi/cdb/persist/transport.py"]}
{"id": "C35", "title": "PERSISTENT RESERVE IN responses decode to what the device reported", "statement": "READ KEYS returns every registered key in order when the response is complete and reports the needed allocation length otherwise; READ RESERVATION, REPORT CAPABILITIES and READ FULL STATUS return the fields at the standard's positions.", "quantifier": "all responses of any length", "why_tests_cant": "Unbounded key lists, truncated buffers.", "anchors": ["src/infi/asi/cdb/persist/input.py"]}
{"id": "C36", "title": "Remaining command CDBs encode their arguments exactly", "statement": "INQUIRY, READ CAPACITY(10/16), REPORT LUNS, REPORT TARGET PORT GROUPS, LOG SENSE, RECEIVE COPY OPERATING PARAMETERS, RECEIVE DIAGNOSTIC RESULTS and TEST UNIT READY produce the byte strings the standard defines for their arguments and request a response of exactly the allocation length in the CDB.", "quantifier": "all in-range arguments", "why_tests_cant": "All arguments.", "anchors": ["src/infi/asi/cdb/inquiry/__init__.py", "src/infi/asi/cdb/read_capacity.py", "src/infi/asi/cdb/report_luns.py", "src/infi/asi/cdb/rtpg.py", "src/infi/asi/cdb/log_sense.py", "src/infi/asi/cdb/receive_copy_operating_parameters.py", "src/infi/asi/cdb/diagnostic/__init__.py", "src/infi/asi/cdb/tur.py"]}
{"id": "C37", "title": "READ CAPACITY responses decode exactly", "statement": "Every 8-byte (32-byte for READ CAPACITY(16)) response decodes to the capacity and geometry fields at the standard's positions, no response of sufficient length is rejected, and the 14-bit lowest aligned address can be recovered from its two parts.", "quantifier": "all responses", "why_tests_cant": "2^256 responses.", "anchors": ["src/infi/asi/cdb/read_capacity.py"]}
{"id": "C38", "title": "REPORT LUNS returns the LUN numbers reported, or refuses", "statement": "For a complete response the list returned is the list of 16-bit LUN numbers in order when all entries use single-level peripheral/flat-zero addressing; if any entry uses another addressing format an error is raised unless explicitly allowed; no LUN is ever silently altered to collide with another when the check is on.", "quantifier": "all LUN lists of any length", "why_tests_cant": "Unbounded lists of 64-bit values.", "anchors": ["src/infi/asi/cdb/report_luns.py"]}
{"id": "C39", "title": "REPORT TARGET PORT GROUPS returns every group and port", "statement": "For every list of target port groups, the length-only and the extended responses encoding it decode to exactly that list.", "quantifier": "all lists of groups, each with any number of ports", "why_tests_cant": "Nested unbounded lists.", "anchors": ["src/infi/asi/cdb/rtpg.py"]}
{"id": "C40", "title": "Fixed format sense data decodes exactly and always", "statement": "Every sense buffer with response code 70h/71h of at least 18 bytes decodes without error to the standard's fields (key, ASC/ASCQ, information, flags, FRU, sense-key specific), and the sense key always has a name.", "quantifier": "all sense buffers", "why_tests_cant": "2^144 buffers.", "anchors": ["src/infi/asi/sense/__init__.py: SCSISenseDataFixed, get_sense_object_from_buffer"]}
{"id": "C41", "title": "Descriptor format sense data yields the device's descriptors", "statement": "Every sense buffer with response code 72h/73h encoding (by the standard) a key, ASC/ASCQ and a list of descriptors decodes to exactly these.", "quantifier": "all descriptor lists", "why_tests_cant": "Unbounded nested lists.", "anchors": ["src/infi/asi/sense/__init__.py: SCSISenseDataDescriptorBased"]}
{"id": "C42", "title": "Every sense code has a well-defined description", "statement": "code_name is defined for all 65536 (ASC, ASCQ) pairs, the tabulated text is returned for tabulated pairs, the three parametric ranges are covered completely, and all other pairs are described as unknown together with their numbers.", "quantifier": "all pairs of codes", "why_tests_cant": "The table is built by overlapping loops; a missed boundary is one value in 65536.", "anchors": ["src/infi/asi/sense/asc.py: ASC_CODES, AdditionalSenseCode.code_name"]}
{"id": "C43", "title": "The device identification page returns every designator", "statement": "For every list of designators encoded per the standard, parsing the page gives these designators in the same order with the same identifier values; an unknown sub-format is refused rather than misread.", "quantifier": "all lists of designators of all supported types", "why_tests_cant": "Unbounded lists of variable length, variable type records.", "anchors": ["src/infi/asi/cdb/inquiry/vpd_pages/designators.py", "src/infi/asi/cdb/inquiry/vpd_pages/device_identification.py"]}
{"id": "C44", "title": "VPD pages decode exactly", "statement": "Unit serial number, supported pages, block limits, logical block provisioning, veritas and unknown pages decode every conforming response to the values at the standard's positions (the unmap granularity alignment if the buffer library joins parts least significant first, see C49); the two pages that can be packed round-trip.", "quantifier": "all responses", "why_tests_cant": "All byte strings.", "anchors": ["src/infi/asi/cdb/inquiry/vpd_pages/"]}
{"id": "C45", "title": "Standard INQUIRY data round-trips", "statement": "Unpacking a packed StandardInquiryDataBuffer returns the fields that were packed, with and without the extended part, and unpacking a truncated extended part returns exactly the fields present.", "quantifier": "all field values, all lengths of the extended part", "why_tests_cant": "Optional trailing parts of every length.", "anchors": ["src/infi/asi/cdb/inquiry/standard.py"]}
{"id": "C46", "title": "SES pages return one entry per element of the enclosure", "statement": "For every enclosure configuration, parsing the configuration page returns its enclosure descriptors, type headers and texts; and parsing the enclosure status / element descriptor page with it returns exactly one overall and possible_elements_num individual entries per type, each decoded from its own bytes.", "quantifier": "all configurations (any number of enclosures, types, elements)", "why_tests_cant": "Doubly nested unbounded lists whose shape depends on another page.", "anchors": ["src/infi/asi/cdb/diagnostic/ses_pages/configuration.py", "src/infi/asi/cdb/diagnostic/ses_pages/enclosure_status.py", "src/infi/asi/cdb/diagnostic/ses_pages/element_descriptor.py"]}
{"id": "C47", "title": "ATA information page returns the identify strings", "statement": "The serial number, firmware revision and model number returned are the byte-swapped words 10-19, 23-26 and 27-46 of the IDENTIFY DEVICE data.", "quantifier": "all identify data", "why_tests_cant": "All byte strings.", "anchors": ["src/infi/asi/cdb/inquiry/vpd_pages/ata_information.py"]}
{"id": "C48", "title": "Binary structures round-trip", "statement": "For every structure declaration made of the field kinds used in the library, unpacking what was packed gives back the packed values and consumes exactly the packed bytes, and padding bits are zero.", "quantifier": "all structure declarations and all values", "why_tests_cant": "All declarations and values.", "anchors": ["src/infi/asi/cdb/ (all _fields_ and Buffer declarations)", "infi.instruct (external, modelled)"]}
{"id": "C49", "title": "Multi-part integer fields are assembled consistently", "statement": "Every integer field assembled from several byte ranges (NAA identifiers, unmap granularity alignment, fan speed) equals the number that the standard's byte order gives.", "quantifier": "all byte contents", "why_tests_cant": "All byte strings.", "anchors": ["src/infi/asi/cdb/inquiry/vpd_pages/designators.py: NAA_*", "src/infi/asi/cdb/inquiry/vpd_pages/block_limits.py", "src/infi/asi/cdb/diagnostic/ses_pages/enclosure_status.py: CoolingElementInfo"]}
{"id": "C50", "title": "Unknown page codes are served by the generic page", "statement": "get_vpd_page and get_ses_page return, for every page code, a command that requests exactly this page code with the proper INQUIRY / RECEIVE DIAGNOSTIC RESULTS flags: the specific class for the supported codes and the generic one otherwise.", "quantifier": "all page codes", "why_tests_cant": "All page codes.", "anchors": ["src/infi/asi/cdb/inquiry/vpd_pages/__init__.py: get_vpd_page", "src/infi/asi/cdb/diagnostic/ses_pages/__init__.py: get_ses_page"]}
{"id": "C51", "title": "One execute() is one command on the wire", "statement": "Executing any command object on an idle executer sends exactly one request to the device (carrying its CDB), consumes exactly one response, leaves the executer idle and returns the decoded response or raises the device's error unchanged.", "quantifier": "all commands, all executer states that are idle, all responses", "why_tests_cant": "Combines driver, executer and all commands for all responses.", "anchors": ["src/infi/asi/cdb/*.py: execute", "src/infi/asi/__init__.py: CommandExecuterBase.call", "src/infi/asi/coroutines/sync_adapter.py: sync_wait"]}
{"id": "C52", "title": "Linux: the sg executer is a faithful transport", "statement": "Whatever device sits behind the sg driver, every command of any sequence executed on an idle executer reaches the device exactly once and exactly as asked, and the caller gets that device answer: the data on GOOD status, AsiCheckConditionError with the sense data on CHECK CONDITION, an AsiSCSIError on any other status.", "quantifier": "all devices (arbitrary state machines), all command sequences, all memory placements", "why_tests_cant": "Quantifies over all devices and all sequences of commands.", "anchors": ["src/infi/asi/linux.py: LinuxCommandExecuter", "src/infi/asi/__init__.py: CommandExecuterBase.call"]}
{"id": "C53", "title": "Solaris: the executer is a faithful transport", "statement": "Whatever device sits behind the target driver (which completes the ioctl and reports the SCSI status in the block), every command of any sequence executed on an idle executer reaches the device exactly once and exactly as asked, and the caller gets that device answer.", "quantifier": "all devices (arbitrary state machines), all command sequences, all memory placements, both byte orders", "why_tests_cant": "Quantifies over all devices and all sequences of commands.", "anchors": ["src/infi/asi/solaris.py: SolarisCommandExecuter", "src/infi/asi/__init__.py: CommandExecuterBase.call"]}
{"id": "C54", "title": "AIX: the executer is a faithful transport", "statement": "Whatever device sits behind the disk driver (which reports a non-zero SCSI status in the block and fails the ioctl), every command of any sequence executed on an idle executer reaches the device exactly once and exactly as asked, and the caller gets that device answer, with either ioctl binding.", "quantifier": "all devices (arbitrary state machines), all command sequences, all memory placements, both bindings", "why_tests_cant": "Quantifies over all devices and all sequences of commands.", "anchors": ["src/infi/asi/aix.py: AixCommandExecuter", "src/infi/asi/__init__.py: CommandExecuterBase.call"]}
{"id": "C55", "title": "Windows: the executer is a faithful transport", "statement": "Whatever device sits behind IOCTL_SCSI_PASS_THROUGH_DIRECT, every command (CDB of at most 16 bytes) of any sequence executed on an idle executer reaches the device exactly once and exactly as asked, and the caller gets that device answer.", "quantifier": "all devices (arbitrary state machines), all command sequences, all memory placements, 32 and 64 bit", "why_tests_cant": "Quantifies over all devices and all sequences of commands.", "anchors": ["src/infi/asi/win32.py: Win32CommandExecuter", "src/infi/asi/__init__.py: CommandExecuterBase.call"]}
{"id": "C56", "title": "RECEIVE COPY OPERATING PARAMETERS decodes exactly", "statement": "Every response that is at least as long as the fixed part plus the announced descriptor codes decodes to the fields at the standard's positions and the codes in order; shorter responses are refused.", "quantifier": "all responses of any length", "why_tests_cant": "All byte strings, variable length.", "anchors": ["src/infi/asi/cdb/receive_copy_operating_parameters.py"]}
{"id": "C57", "title": "What a failing device says reaches the caller", "statement": "On every platform, whenever the device answers a command with CHECK CONDITION and sense data of either format (the reserved byte 6 of the descriptor format being zero, see C41), the caller gets AsiCheckConditionError whose sense object has the device's sense key name, additional sense code and qualifier, and the executer is ready for the next command.", "quantifier": "all devices, all commands, all sense data of both formats and any length, all memory placements", "why_tests_cant": "Composes driver, executer and decoder for all devices and all sense buffers.", "anchors": ["src/infi/asi/sense/__init__.py: get_sense_object_from_buffer", "src/infi/asi/linux.py", "src/infi/asi/solaris.py", "src/infi/asi/aix.py", "src/infi/asi/win32.py", "src/infi/asi/__init__.py: CommandExecuterBase.call"]}
{"id": "C58", "title": "Byte list diagnostic pages return exactly their bytes", "statement": "Parsing the supported diagnostic pages page (00h) and the vendor page 80h returns the announced number of entries, being exactly the page's bytes after the header, in order.", "quantifier": "all responses of any length", "why_tests_cant": "All byte strings, variable length.", "anchors": ["src/infi/asi/cdb/diagnostic/ses_pages/supported_pages.py", "src/infi/asi/cdb/diagnostic/ses_pages/vendor_0x80.py"]}
{"id": "C59", "title": "What is written is what is read back", "statement": "In front of a disk that follows SBC-3, any sequence of READ(6/10/12/16), WRITE(6/10/12/16), WRITE SAME(10/16), COMPARE AND WRITE, UNMAP, READ CAPACITY(10/16) and TEST UNIT READY commands executed through the library acts as the corresponding operations on an array of bytes: every caller sees that operation's result or the sense data of its failure, and the disk ends with that array's contents. In particular data written and not overwritten is what a later read returns, and unmapped blocks read as zeros. (READ(6) with count 0 for 512-byte blocks, WRITE SAME for block sizes that are multiples of 512, COMPARE AND WRITE with a buffer of twice the count, and a disk that goes by the block descriptor length of UNMAP: see C27, C30, C31, C32 for the rest.)", "quantifier": "all disk sizes and contents, all command sequences, all addresses and counts the commands can carry, all memory placements, all platforms", "why_tests_cant": "Composes command building, driver, executer, coroutine driver, response decoding and a device model for all histories.", "anchors": ["src/infi/asi/cdb/read.py", "src/infi/asi/cdb/write.py", "src/infi/asi/cdb/write_same.py", "src/infi/asi/cdb/compare_and_write.py", "src/infi/asi/cdb/read_capacity.py", "src/infi/asi/__init__.py: CommandExecuterBase", "src/infi/asi/linux.py", "src/infi/asi/solaris.py", "src/infi/asi/aix.py", "src/infi/asi/win32.py"]}
{"id": "C60", "title": "Windows: commands run together get what they would get alone", "statement": "When the reactor runs several commands on one executer of an asynchronous Windows file, then whatever order the device serves the requests in and whenever it does, wait_for returns the results in argument order, each command's own, as if the commands had been asked one at a time in the order the device chose; every request reaches the device exactly once; an exception is that of one of the commands; the executer is left ready; and wait_for cannot hang while the device works. (Distinct command objects, no more of them than the queue has room for; for more see C04.)", "quantifier": "all numbers of commands, all devices, all orders and moments of completion, all memory placements, 32 and 64 bit", "why_tests_cant": "Interleavings of a reactor, generators sharing one executer, memory shared with the operating system and an arbitrary device.", "anchors": ["src/infi/asi/win32.py: Win32AsyncReactor", "src/infi/asi/win32.py: Win32AsyncFile", "src/infi/asi/win32.py: Win32CommandExecuter", "src/infi/asi/coroutines/sync_adapter.py", "src/infi/asi/__init__.py: CommandExecuterBase"]}
{"id": "C61", "title": "Windows: an asynchronous file acts as a synchronous one", "statement": "Executing commands one at a time with sync_wait on a Win32AsyncFile has the outcome it has on a Win32File: a request the operating system carries out gives the device's answer, whether it completes at once or later, and a request that fails raises an operating system error.", "quantifier": "all commands, all behaviours of DeviceIoControl and GetOverlappedResult, all devices and sequences of commands", "why_tests_cant": "Depends on when and how the operating system completes overlapped requests, which a test cannot choose.", "anchors": ["src/infi/asi/win32.py: Win32AsyncFile.ioctl", "src/infi/asi/win32.py: WinAsyncIOToken.get_result", "src/infi/asi/win32.py: Win32CommandExecuter", "src/infi/asi/coroutines/sync_adapter.py"]}
{"id": "C62", "title": "What a target reports about itself reaches the caller", "statement": "In front of a target that answers by SPC-4 and SES-3, any sequence of TEST UNIT READY, INQUIRY (standard data and every VPD page), REPORT LUNS, REPORT TARGET PORT GROUPS, RECEIVE COPY OPERATING PARAMETERS, RECEIVE DIAGNOSTIC RESULTS and PERSISTENT RESERVE IN commands executed through the library returns the objects that say what the target holds, an AsiCheckConditionError with 5/24/00 for what it does not have, and never presents as reported what the target did not send.", "quantifier": "all targets (any pages of any contents within the commands' allocation lengths), all command sequences, all memory placements, all platforms", "why_tests_cant": "Composes command building, page tables, driver, executer, coroutine driver, every response decoder and a device model.", "anchors": ["src/infi/asi/cdb/inquiry/__init__.py", "src/infi/asi/cdb/inquiry/standard.py", "src/infi/asi/cdb/inquiry/vpd_pages/__init__.py", "src/infi/asi/cdb/report_luns.py", "src/infi/asi/cdb/rtpg.py", "src/infi/asi/cdb/receive_copy_operating_parameters.py", "src/infi/asi/cdb/diagnostic/__init__.py", "src/infi/asi/cdb/persist/input.py", "src/infi/asi/__init__.py: CommandExecuterBase", "src/infi/asi/linux.py", "src/infi/asi/solaris.py", "src/infi/asi/aix.py", "src/infi/asi/win32.py"]}
{"id": "C63", "title": "A short transfer can be told from a full one", "statement": "When a device succeeds but sends fewer bytes than a READ or LOG SENSE command has room for, the caller gets exactly the bytes sent (None if there are none): different data gives different results, and bytes the device did not send are never handed on as data.", "quantifier": "all devices, all READ and LOG SENSE commands, all data of any length up to the allocation length, all memory placements, all platforms", "why_tests_cant": "Tests use devices that fill the buffer; what happens to the residual count shows only through the operating system interface.", "anchors": ["src/infi/asi/linux.py: LinuxCommandExecuter", "src/infi/asi/solaris.py: SolarisCommandExecuter", "src/infi/asi/aix.py: AixCommandExecuter", "src/infi/asi/win32.py: Win32CommandExecuter", "src/infi/asi/cdb/read.py", "src/infi/asi/cdb/log_sense.py"]}
{"id": "C64", "title": "A command given the adapter does what it does given the executer", "statement": "CommandExecuterAdapter(executer, sync_call) can stand in for the executer: sync_wait(command.execute(adapter)) returns, raises and leaves the world exactly as sync_wait(command.execute(executer)) does, for any sequence of commands; adapter.send and adapter.wait are done when they return; adapter.is_queue_full tells whether the queue is full.", "quantifier": "all commands, all platforms (any _os_send and _os_receive), all states of executer and operating system, all sequences of commands", "why_tests_cant": "Two different interleavings of the same generators have to agree in every state; a test compares a few runs.", "anchors": ["src/infi/asi/__init__.py: CommandExecuterAdapter", "src/infi/asi/coroutines/sync_adapter.py: sync_call", "src/infi/asi/coroutines/sync_adapter.py: sync_wait"]}
{"id": "C65", "title": "Reservations shared with other hosts are what the caller is told they are", "statement": "In front of a logical unit that keeps persistent reservations by SPC-4 and is used by any number of other hosts, any sequence of REGISTER, REGISTER AND IGNORE EXISTING KEY, RESERVE, RELEASE, CLEAR, PREEMPT, PREEMPT AND ABORT, READ KEYS, READ RESERVATION and TEST UNIT READY commands executed through the library acts as those operations interleaved with what the others do: a service action returns normally exactly if it was carried out, a conflict is an AsiSCSIError that is not a check condition, other refusals and unit attentions are AsiCheckConditionErrors with the unit's sense data, READ KEYS shows all keys or that there are more than fit and how many, READ RESERVATION shows the holder's key and type or that nobody holds one. (Without APTPL, SPEC_I_PT, ALL_TG_PT and REGISTER AND MOVE, and READ RESERVATION with at least 24 bytes: see C34, C35.)", "quantifier": "all states of the unit, all actions of other hosts between any two commands, all command sequences, all keys, types and allocation lengths, all memory placements, all platforms", "why_tests_cant": "Interleavings with other hosts, composed with command building, driver, executer, coroutine driver and decoders.", "anchors": ["src/infi/asi/cdb/persist/output.py", "src/infi/asi/cdb/persist/input.py", "src/infi/asi/cdb/tur.py", "src/infi/asi/__init__.py: CommandExecuterBase", "src/infi/asi/linux.py", "src/infi/asi/solaris.py", "src/infi/asi/aix.py", "src/infi/asi/win32.py"]}
{"id": "C66", "title": "A disk behind the device mapper acts as an array of bytes", "statement": "Any sequence of READ, WRITE, WRITE SAME, COMPARE AND WRITE, UNMAP, READ CAPACITY and TEST UNIT READY commands executed with the executer for device mapper devices (linux_dm), in front of a disk that follows SBC-3, acts as the corresponding operations on an array of bytes: each caller sees the operation's data, or its failure with the disk's sense data, and the disk ends with that array's contents.", "quantifier": "all command sequences, disk geometries and contents, memory placements, byte orders, queue sizes", "why_tests_cant": "Composes command building, SG_IO, the block read back after the ioctl, executer, coroutine driver and decoders over unbounded sequences; failures need a real failing disk.", "anchors": ["src/infi/asi/linux.py: LinuxIoctlCommandExecuter", "src/infi/asi/linux.py: LinuxCommandExecuter._handle_raw_response", "src/infi/asi/executers.py: linux_dm", "src/infi/asi/cdb/read.py", "src/infi/asi/cdb/write.py", "src/infi/asi/cdb/write_same.py", "src/infi/asi/cdb/compare_and_write.py"]}
{"id": "C67", "title": "Commands outstanding together on Linux get their own answers", "statement": "With any number of commands outstanding together (up to the queue size) on the Linux sg executer, executed by the device in any order and their responses read in any order, every callback gets the device's answer to its own command - its own data, its own sense data - exactly once; the device executes exactly the commands sent, each once and as asked; and the commands listed as pending are exactly those outstanding.", "quantifier": "all devices, all histories of sends, executions and reads of any length, all queue sizes, all commands, all memory placements, direct and indirect transfers, both byte orders", "why_tests_cant": "Needs many overlapping commands over a driver that completes out of order, with every buffer in memory; interleavings are unbounded.", "anchors": ["src/infi/asi/__init__.py: CommandExecuterBase", "src/infi/asi/linux.py: SGIO", "src/infi/asi/linux.py: LinuxCommandExecuter", "src/infi/asi/executers.py: linux_sg"]}
{"id": "C68", "title": "Greenlets sharing an executer are each told what became of their own command", "statement": "Any number of greenlets may use one executer at the same time (the executer switches to other greenlets after every read and write). However they are scheduled and in whatever order the device answers, a call whose command the driver takes returns the data the device gave for the command of this very call or raises the exception made of its answer; one whose command it does not take raises that error and disturbs nobody; no answer is lost or delivered twice; and if the device answers every command, every call ends this way.", "quantifier": "all numbers of greenlets and calls, all schedules, all orders and contents of answers, all choices of writes that fail, all queue sizes, with and without patched time.sleep and select", "why_tests_cant": "Schedules and numbers of greenlets are unbounded, and the failing schedules need a switch between a read and the processing of what was read.", "anchors": ["src/infi/asi/__init__.py: gevent_friendly", "src/infi/asi/__init__.py: CommandExecuterBase.call", "src/infi/asi/__init__.py: CommandExecuterBase._process_pending_response", "src/infi/asi/linux.py: LinuxCommandExecuter._os_receive", "src/infi/asi/unix.py: UnixFile.read"]}
{"id": "C69", "title": "A disk shared with other hosts: the caller learns what the disk decided", "statement": "In front of a disk that enforces persistent reservations (SPC-4, SBC-3) and is used by any number of other hosts that register, reserve, preempt, read and write between any two of our commands, any sequence of READ, WRITE, WRITE SAME, COMPARE AND WRITE, UNMAP, READ CAPACITY, TEST UNIT READY and PERSISTENT RESERVE commands executed through the library acts as those operations: data is the disk's data at that moment, a reservation conflict is an AsiSCSIError that is not a check condition and nothing was written, a unit attention is an AsiCheckConditionError and nothing was done, other failures carry the disk's sense data. (Commands as in C59 and C65.)", "quantifier": "all disks, contents and states of reservations, all deeds of other hosts between any two commands, all command sequences, all memory placements, all platforms", "why_tests_cant": "Interleavings of several hosts with reservations, composed with command building, driver, executer, coroutine driver and decoders.", "anchors": ["src/infi/asi/cdb/read.py", "src/infi/asi/cdb/write.py", "src/infi/asi/cdb/persist/output.py", "src/infi/asi/cdb/persist/input.py", "src/infi/asi/__init__.py: CommandExecuterBase", "src/infi/asi/linux.py", "src/infi/asi/solaris.py", "src/infi/asi/aix.py", "src/infi/asi/win32.py"]}
{"id": "C70", "title": "An exclusive reservation makes the disk one's own until the caller is told otherwise", "statement": "If a RESERVE of type Write Exclusive or Exclusive Access sent through the library returns normally, then whatever other hosts do, the reads and writes sent after it return what they would on a disk nobody else uses, with the contents at the time of the reservation, until one of them raises AsiCheckConditionError with UNIT ATTENTION and additional sense code 2Ah; no command is affected by another host before that.", "quantifier": "all disks and states of reservations, all deeds of other hosts (including preemption), all sequences of disk commands, all memory placements, all platforms", "why_tests_cant": "A safety property over all interleavings with other hosts, through the whole stack.", "anchors": ["src/infi/asi/cdb/persist/output.py", "src/infi/asi/cdb/read.py", "src/infi/asi/cdb/write.py", "src/infi/asi/cdb/write_same.py", "src/infi/asi/cdb/compare_and_write.py", "src/infi/asi/__init__.py: CommandExecuterBase", "src/infi/asi/linux.py", "src/infi/asi/solaris.py", "src/infi/asi/aix.py", "src/infi/asi/win32.py"]}
{"id": "C71", "title": "Callbacks may use the executer that calls them", "statement": "A callback may itself send commands (with callbacks that do the same), make calls, wait, and raise. Whatever callbacks do, nested to any depth, every callback is called at most once and with the device's answer to its own command, no accepted command is lost, wait() returns only when everything sent (also by callbacks) has been answered, no wait() or call() waits for a response when none can come, and a call() ends with the answer to its own command unless reading responses fails.", "quantifier": "all programs and callbacks (any code, any nesting, also never-ending ones), all devices (any order and contents of answers, failing sends, failing reads), all queue sizes", "why_tests_cant": "Nesting and interleavings are unbounded; a test follows one script.", "anchors": ["src/infi/asi/__init__.py: CommandExecuterBase.call", "src/infi/asi/__init__.py: CommandExecuterBase.send", "src/infi/asi/__init__.py: CommandExecuterBase.wait", "src/infi/asi/__init__.py: CommandExecuterBase._process_pending_response"]}
{"id": "C72", "title": "The time limit of a command is the one asked for", "statement": "A command has thirty seconds unless another limit is given when the executer is made; the limit given is the limit the driver applies, it means the same time on every platform, and the library waits for the driver's answer at least that long.", "quantifier": "all commands, all limits, all memory placements, all platforms, all clocks and delays of the driver", "why_tests_cant": "The limit is a field of a block only a driver reads; units differ per driver, and testing it takes commands that hang for the whole limit.", "anchors": ["src/infi/asi/__init__.py: create_platform_command_executer", "src/infi/asi/linux.py: SGIO.create", "src/infi/asi/solaris.py: SCSICMD.create", "src/infi/asi/aix.py: sc_passthru.create", "src/infi/asi/win32.py: SCSIPassThroughDirect", "src/infi/asi/unix.py: UnixFile.read", "src/infi/asi/executers.py"]}
{"id": "C73", "title": "A call that was given up does not spoil the calls after it", "statement": "A call on the Linux sg executer may be given up while its command is with the device: the time limit of the read runs out, or an exception (an interrupt, a timeout of the caller) arrives while it waits. The device may execute the command later and its answer may come in while later calls wait. Every later call nevertheless ends with the device's answer to its own command (its own data, its own sense data), is itself given up, or is refused because the queue is full; late answers reach nobody else.", "quantifier": "all devices, all sequences of calls, all moments and exceptions at which calls are given up, all orders of execution and of answers, all queue sizes, all memory placements, direct and indirect transfers, both byte orders", "why_tests_cant": "Needs a device that answers after the caller gave up, while other calls are under way; the number of calls in between decides, and it is unbounded.", "anchors": ["src/infi/asi/__init__.py: CommandExecuterBase.call", "src/infi/asi/__init__.py: CommandExecuterBase._next_packet_index", "src/infi/asi/__init__.py: CommandExecuterBase._process_pending_response", "src/infi/asi/linux.py: LinuxCommandExecuter", "src/infi/asi/linux.py: SGIO", "src/infi/asi/unix.py: UnixFile.read"]}
{"id": "C74", "title": "Whichever way a command fails, the caller can catch it as an AsiException", "statement": "When a command does not return, the exception is one of the library's own (derived from AsiException): a failure the device reported is an AsiSCSIError or one of its subclasses, a request the operating system refused or failed is an AsiOSError, a full queue is an AsiRequestQueueFullError. An error of the device is not turned into an error of the operating system, so its sense data is not lost.", "quantifier": "all commands, all devices and drivers (any refusal, any status, any sense data), all idle executers, all memory placements, all platforms", "why_tests_cant": "Depends on how the driver of each operating system reports failures; the failing paths need a driver that refuses, fails or times out, and tests only run against drivers that work.", "anchors": ["src/infi/asi/errors.py", "src/infi/asi/__init__.py: CommandExecuterBase.call", "src/infi/asi/__init__.py: CommandExecuterBase._next_packet_index", "src/infi/asi/linux.py: LinuxCommandExecuter._os_send", "src/infi/asi/unix.py: UnixFile", "src/infi/asi/solaris.py: SolarisCommandExecuter._os_send", "src/infi/asi/aix.py: AixCommandExecuter._os_send", "src/infi/asi/win32.py: DeviceIoControl"]}
{"id": "C75", "title": "Options assigned to a command object reach the device where the standards put them", "statement": "Command objects are changed between construction and execution: that is the only way to use FUA, DPO, protection, group number, UNMAP of WRITE SAME, SP and PC of LOG SENSE, the third party fields of RESERVE and RELEASE and the control byte, and addresses, lengths and buffers may be changed too. Whatever is assigned, in any order, the block sent has every option, address and length at the place SBC-3, SPC-4 and SAM-5 give it, with the value last assigned, everything not assigned is as constructed, and the buffer asked for or sent belongs to the block.", "quantifier": "all sequences of assignments to all attributes, all values that fit their fields, all constructor arguments, all behaviours of the packing library for other values", "why_tests_cant": "Options are independent bits in shared bytes: the combinations of options, values and orders of assignment are unbounded, and a device that ignores an option looks the same as one that was not told.", "anchors": ["src/infi/asi/cdb/read.py", "src/infi/asi/cdb/write.py", "src/infi/asi/cdb/write_same.py", "src/infi/asi/cdb/compare_and_write.py", "src/infi/asi/cdb/unmap.py", "src/infi/asi/cdb/log_sense.py", "src/infi/asi/cdb/control.py", "src/infi/asi/cdb/__init__.py", "src/infi/asi/cdb/inquiry/__init__.py", "src/infi/asi/cdb/read_capacity.py", "src/infi/asi/cdb/report_luns.py", "src/infi/asi/cdb/rtpg.py", "src/infi/asi/cdb/tur.py", "src/infi/asi/cdb/receive_copy_operating_parameters.py", "src/infi/asi/cdb/diagnostic/__init__.py", "src/infi/asi/cdb/reserve.py", "src/infi/asi/cdb/release.py", "src/infi/asi/cdb/persist/output.py", "src/infi/asi/cdb/persist/input.py"]}
{"id": "C76", "title": "Designators and pages built with the library's classes read back as they were built", "statement": "The designator and page classes also pack: simulators and tests build responses with them. A designator or page whose attributes fit their fields and describe one of the standard's formats is packed without an exception, into the bytes the standard prescribes, with the length of byte strings filled in by the class; and unpacking these bytes, alone or followed by anything, in a page with any number of designators, gives the attributes that were packed.", "quantifier": "all designator classes, all attribute values that fit, all byte strings, lists of designators of any length, both orders of joined references, all behaviours of the packing library for values that do not fit", "why_tests_cant": "Twelve classes with joined sub-byte fields and computed lengths; a test packs one value of a few of them, and the repository's tests pack none.", "anchors": ["src/infi/asi/cdb/inquiry/vpd_pages/designators.py", "src/infi/asi/cdb/inquiry/vpd_pages/device_identification.py", "src/infi/asi/cdb/inquiry/vpd_pages/block_limits.py", "src/infi/asi/cdb/inquiry/vpd_pages/veritas.py", "src/infi/asi/cdb/inquiry/vpd_pages/logical_block_provisioning.py"]}
{"id": "C77", "title": "Windows: any number of commands can be waited for together", "statement": "wait_for, given any number of commands, each on an executer and device of its own or sharing one, hands the operating system the events of all pending requests, understands every number the operating system may return (an index, a timeout, a failure), goes on with the very command whose event is signalled, and returns when all commands are done; it raises only if the operating system fails or no pending request is served within the timeout.", "quantifier": "all numbers of commands, all commands, all I/O they perform, all documented returns of WaitForMultipleObjects, all sets of events signalled in time at each wait", "why_tests_cant": "The limit of 64 handles and the codes for timeout and failure are the operating system's: a test with a handful of commands on healthy devices never meets them, and the order of events is not under its control.", "anchors": ["src/infi/asi/win32.py", "src/infi/asi/coroutines/sync_adapter.py"]}
{"id": "C78", "title": "Windows: the memory given to the operating system is kept until the request is done", "statement": "An overlapped request names memory of the process (request block with the sense buffer, data buffer, overlapped structure) that the operating system writes to when the device has served it. From the moment a request is submitted until it is served, something in the process refers to that memory, so that Python does not hand it out for something else: whatever the other commands do, whatever the device answers to them, and whether wait_for returns or raises.", "quantifier": "all lists of commands sharing an executer, all devices, all orders in which requests are served and events picked, all ways wait_for may raise, all orders in which Python gives up the coroutines", "why_tests_cant": "Memory corruption after an error in another command depends on timing and on what Python does with the freed memory; a test sees it rarely and cannot tell where it came from.", "anchors": ["src/infi/asi/__init__.py: CommandExecuterBase.send", "src/infi/asi/win32.py: Win32AsyncReactor.wait_for", "src/infi/asi/win32.py: Win32AsyncFile.ioctl", "src/infi/asi/win32.py: Win32CommandExecuter._os_send", "src/infi/asi/coroutines/sync_adapter.py"]}
{"id": "C79", "title": "Windows: commands sent ahead each get their own answer", "statement": "On the Windows executer commands may be sent ahead with callbacks, other commands may be executed with call() meanwhile, and wait() collects what is outstanding. Every accepted command reaches the device once and in order; every callback is called once, by the end of the next wait(), with the device's answer to its own command (its own data, its own sense data); call() returns or raises the answer to its own command and no other; nothing is raised but the device's errors and a refusal when as many commands are outstanding as the queue holds.", "quantifier": "all programs of send, call and wait, all commands, all devices, all queue sizes, all memory placements, 32 and 64 bit", "why_tests_cant": "Answers are matched by a stack of finished requests and by packet numbers that go round; what goes wrong shows only in long programs that mix send and call, and shows as a callback that is not called.", "anchors": ["src/infi/asi/win32.py: Win32CommandExecuter", "src/infi/asi/win32.py: SCSIPassThroughDirect", "src/infi/asi/win32.py: Win32File.ioctl", "src/infi/asi/__init__.py: CommandExecuterBase.send", "src/infi/asi/__init__.py: CommandExecuterBase.call", "src/infi/asi/__init__.py: CommandExecuterBase.wait"]}
{"id": "C80", "title": "The queue size an executer is made with does not change what commands return", "statement": "Every executer can be made with a queue size. Whatever it is, commands executed one at a time reach the device once and in order, and every one returns or raises what the device answered to it; and commands sent ahead, as many as the queue size allows, have their callbacks told the answers to themselves.", "quantifier": "all queue sizes, all sequences of commands, all devices, all memory placements, all platforms", "why_tests_cant": "Tests use the default size, which is 1 on some platforms and 15 on others; the effect of another size depends on the number of commands executed before.", "anchors": ["src/infi/asi/solaris.py: SolarisCommandExecuter", "src/infi/asi/aix.py: AixCommandExecuter", "src/infi/asi/linux.py: LinuxCommandExecuter", "src/infi/asi/linux.py: LinuxIoctlCommandExecuter", "src/infi/asi/win32.py: Win32CommandExecuter", "src/infi/asi/__init__.py: CommandExecuterBase._next_packet_index", "src/infi/asi/__init__.py: CommandExecuterBase._process_pending_response"]}
{"id": "C81", "title": "A response longer than the command has room for is not taken for the whole", "statement": "When a target has more to say than the allocation length of the command allows, the caller of a reporting command (INQUIRY pages, REPORT LUNS, REPORT TARGET PORT GROUPS, RECEIVE COPY OPERATING PARAMETERS, PERSISTENT RESERVE IN, diagnostic pages) is told so by an exception, or gets the part that arrived decoded like the whole together with the length the target announced; no number is ever made from bytes that did not arrive, and two targets that differ are not shown alike as if complete.", "quantifier": "all targets and lengths of their pages, all allocation lengths, all positions at which a list of descriptors is cut, all platforms", "why_tests_cant": "The cut can fall into any byte of any descriptor of lists of any length; tests have pages that fit.", "anchors": ["src/infi/asi/cdb/inquiry/vpd_pages/device_identification.py: DeviceIdentificationVPDPageBuffer", "src/infi/asi/cdb/inquiry/vpd_pages/designators.py: determine_designator", "src/infi/asi/cdb/inquiry/vpd_pages/unit_serial_number.py: UnitSerialNumberVPDPageBuffer", "src/infi/asi/cdb/rtpg.py: RTPGCommand", "src/infi/asi/cdb/persist/input.py: PersistentReserveInReadFullStatusResponse", "src/infi/asi/cdb/receive_copy_operating_parameters.py: ReceiveCopyOperatingParametersResponse"]}
{"id": "C82", "title": "What is written with FUA survives a loss of power", "statement": "In front of a disk with a volatile cache, which moves data to the medium and loses power whenever it likes: once a WRITE (10, 12, 16) or a matching COMPARE AND WRITE whose `fua` is 1 has returned, or a READ (10, 12, 16) whose `fua` is 1 has returned data, that data is what a later read of these blocks returns, whatever commands that leave the blocks alone and whatever losses of power come between; the only other thing that read can do is raise the unit attention that tells of a loss of power, or the refusal of an option it asked for. Without `fua` the same holds as long as no caller is told of a loss of power.", "quantifier": "all disks, all points of destaging and loss of power, all sequences of commands, all data and block ranges, all options, all platforms", "why_tests_cant": "Whether the bit matters shows only when power is lost between two commands after some data was destaged and some was not; tests compare command blocks at most.", "anchors": ["src/infi/asi/cdb/write.py: Write10Command", "src/infi/asi/cdb/write.py: Write12Command", "src/infi/asi/cdb/write.py: Write16Command", "src/infi/asi/cdb/write.py: Write6Command", "src/infi/asi/cdb/read.py: Read10Command", "src/infi/asi/cdb/read.py: Read12Command", "src/infi/asi/cdb/read.py: Read16Command", "src/infi/asi/cdb/compare_and_write.py: CompareAndWriteCommand", "src/infi/asi/cdb/write_same.py: WriteSame10Command"]}
{"id": "C83", "title": "Linux multipath: commands sent ahead each get their own answer", "statement": "On the executer for multipath devices commands may be sent ahead with callbacks, other commands may be executed with call() meanwhile, and wait() collects what is outstanding. Every accepted command reaches the device once and in order; every callback is called once, by the end of the next wait(), with the data the device sent for its own command; call() returns the data of its own command; nothing is raised but a refusal when as many commands are outstanding as the queue holds.", "quantifier": "all programs of send, call and wait, all commands, all devices, all queue sizes, all memory placements, 32 and 64 bit", "why_tests_cant": "The executer works with its default queue size of 1, which is all tests use; with another size a callback is not called, depending on what was sent after its command.", "anchors": ["src/infi/asi/linux.py: LinuxIoctlCommandExecuter", "src/infi/asi/linux.py: LinuxCommandExecuter._handle_raw_response", "src/infi/asi/__init__.py: CommandExecuterBase.send", "src/infi/asi/__init__.py: CommandExecuterBase.call", "src/infi/asi/__init__.py: CommandExecuterBase.wait", "src/infi/asi/executers.py: linux_dm"]}
{"id": "C84", "title": "Command objects do not influence each other", "statement": "A program makes any number of command objects, assigns to their attributes, buffers and control bytes and executes them, in any order and any number of times. The requests of each object are the ones its own constructor arguments and the assignments made to it before determine; an object executed as it was made sends the request of its constructor arguments every time. This holds whatever the program does if the structure library copies declared defaults, and whatever the library does if control bytes are assigned (cmd.control = Control(...)) before any member of them is changed in place; otherwise cmd.control.naca = 1 may change the control byte of other commands, made before or later. Commands that replace their control byte when packed (LOG SENSE, RECEIVE DIAGNOSTIC RESULTS, PERSISTENT RESERVE) always send zero, and for them assigning counts until they are executed.", "quantifier": "all programs over any number of objects of all command classes, all values, all libraries that copy, share or look up defaults", "why_tests_cant": "DEFAULT_CONTROL and DEFAULT_CONTROL_BUFFER are two objects named in the declarations of all commands but one; whether a change through one command reaches another shows only in programs with several objects and depends on their order, and unit tests make one command each.", "anchors": ["src/infi/asi/cdb/control.py: DEFAULT_CONTROL", "src/infi/asi/cdb/control.py: DEFAULT_CONTROL_BUFFER", "src/infi/asi/cdb/control.py: Control", "src/infi/asi/cdb/reserve.py", "src/infi/asi/cdb/release.py", "src/infi/asi/cdb/persist/output.py", "src/infi/asi/cdb/persist/input.py", "src/infi/asi/cdb/diagnostic/__init__.py", "src/infi/asi/cdb/log_sense.py", "src/infi/asi/cdb/read.py: Read10Command", "src/infi/asi/cdb/write.py: Write10Command", "src/infi/asi/cdb/inquiry/__init__.py: InquiryCommand", "src/infi/asi/cdb/unmap.py: UnmapCommand.__init__", "src/infi/asi/cdb/__init__.py: CDB.create_datagram"]}
{"id": "C85", "title": "Several users of one device: one order of execution explains what all of them are told", "statement": "Any number of users (threads, processes, hosts), each with an executer of their own on the same device, send commands and process responses in any order, while the device works on outstanding commands of all of them in any order. There is one order of the executed commands in which the device, working on one after the other, gives every user exactly what they were told, executes nothing twice and nothing that was not sent, and leaves it in the state it is in; a command sent after another one was over, whoever sent it, comes after it. So a read sent after another user's write was over returns what was written, if nothing else touches the blocks. Hosts on different platforms that use call() are told what the device would answer if asked directly in the order of the calls.", "quantifier": "any number of users, all interleavings, all commands, all devices, all queue sizes, all memory placements; hosts on all platforms", "why_tests_cant": "Interleavings of several users with a device that reorders cannot be enumerated, and whether one explanation fits all users is a statement about the whole history.", "anchors": ["src/infi/asi/__init__.py: CommandExecuterBase.send", "src/infi/asi/__init__.py: CommandExecuterBase.call", "src/infi/asi/__init__.py: CommandExecuterBase._process_pending_response", "src/infi/asi/linux.py: LinuxCommandExecuter", "src/infi/asi/solaris.py: SolarisCommandExecuter", "src/infi/asi/aix.py: AixCommandExecuter", "src/infi/asi/win32.py: Win32CommandExecuter", "src/infi/asi/unix.py: UnixFile"]}
{"id": "C86", "title": "Threads sharing an executer", "statement": "Any number of threads make calls on one executer, the interpreter switching between them at any access to the executer's attributes, and the device answering in any order. The driver may fail to take commands. Every call ends with nothing sent (the queue is full, or the write failed), given up because no response could be read for the time limit, or with what the device answered to the very command of this call; no command is sent, answered or told twice, and none that was sent is lost. A call whose answer arrived returns. With a lock around call() every call whose write succeeds and that is not given up gets its own answer, and none is refused.", "quantifier": "any number of threads and calls, all schedules, all devices and answers, any writes failing, all queue sizes, all time limits", "why_tests_cant": "Schedules at the granularity of attribute accesses cannot be enumerated or forced in a unit test; a lost update of packet_index needs a switch between two bytecodes.", "anchors": ["src/infi/asi/__init__.py: CommandExecuterBase.call", "src/infi/asi/__init__.py: CommandExecuterBase.send", "src/infi/asi/__init__.py: CommandExecuterBase._next_packet_index", "src/infi/asi/__init__.py: CommandExecuterBase._process_pending_response", "src/infi/asi/linux.py: LinuxCommandExecuter._handle_raw_response", "src/infi/asi/unix.py: UnixFile.read", "src/infi/asi/__init__.py: create_os_file"]}
{"id": "C87", "title": "Linux: what the device sends goes to the buffers of its command and nowhere else", "statement": "The sg driver transfers data directly between the device and the buffers of a request, at any time between the write that starts the command and the read of its response. Whatever memory the allocator hands out, as long as it is not in use: every other object of the program keeps its contents, the buffers of every request that the driver still has are kept by the executer, the device gets the data of the command as the caller gave it, and every callback gets the answer to its own command.", "quantifier": "all programs that make and give up objects and send and receive commands, all allocators, all devices, all orders of completion, direct and buffered transfers, 32 and 64 bit", "why_tests_cant": "Whether a buffer is released too early shows only when the allocator reuses it before the device is done; tests run without a device, and reuse of memory cannot be forced from Python.", "anchors": ["src/infi/asi/linux.py: SGIO.create", "src/infi/asi/linux.py: LinuxCommandExecuter._os_send", "src/infi/asi/linux.py: SG_FLAG_DIRECT_IO", "src/infi/asi/__init__.py: CommandExecuterBase.send", "src/infi/asi/__init__.py: CommandExecuterBase._process_pending_response", "src/infi/asi/__init__.py: gevent_friendly"]}
{"id": "C88", "title": "Enclosure pages decoded with an older configuration", "statement": "The enclosure status and element descriptor pages carry no element types; the library decodes them with a configuration page read before. If the generation code of the page is that of the configuration, every element is reported with its own type and status. The library must notice if the enclosure changed in between, rather than report the status of one type of element as another's.", "quantifier": "all configurations, all enclosures, all status and descriptor pages they send, configuration pages of the same or of another generation", "why_tests_cant": "It takes an enclosure whose elements change between two commands; a test with fixed bytes uses one configuration for all pages.", "anchors": ["src/infi/asi/cdb/diagnostic/ses_pages/enclosure_status.py: EnclosureStatusDiagnosticPagesData", "src/infi/asi/cdb/diagnostic/ses_pages/element_descriptor.py: ElementDescriptorDiagnosticPagesData", "src/infi/asi/cdb/diagnostic/ses_pages/configuration.py: ConfigurationDiagnosticPagesData"]}
{"id": "C89", "title": "The text of the exception for a failed command says what the system reported", "statement": "When a command fails other than with a check condition, the text of the exception has, behind each of its labels (SCSI status, driver status, host status, adapter status, validity, reason, invalid argument), the number the system reported for it, and its name if it has one.", "quantifier": "all responses of the driver, all numbers, all four platforms, both sizes of pointers and byte orders", "why_tests_cant": "The texts are built from several status bytes in several branches; no test compares a text, and the combinations of status bytes cannot be produced without a failing host adapter.", "anchors": ["src/infi/asi/linux.py: prettify_status", "src/infi/asi/linux.py: LinuxCommandExecuter._handle_raw_response", "src/infi/asi/aix.py: AixAsiSCSIError", "src/infi/asi/aix.py: AixCommandExecuter._handle_raw_response", "src/infi/asi/solaris.py: SolarisCommandExecuter._handle_raw_response", "src/infi/asi/win32.py: Win32CommandExecuter._os_receive"]}
{"id": "C90", "title": "Every number in a decoded object has its name in the tables", "statement": "The library has tables of names for device types, versions, VPD pages, code sets, designator types, associations, element types, status codes and fan speeds. Every value that a decoded object can have in such a field has a name in the table, the one the standard gives it; different values have different names; and what a lookup answers does not depend on what was looked up before.", "quantifier": "all INQUIRY, supported pages, device identification and enclosure data, all programs of lookups", "why_tests_cant": "Tables are transcribed by hand, and no test walks through all values; one of the tables changes with every lookup.", "anchors": ["src/infi/asi/cdb/inquiry/vpd_pages/__init__.py: CustomDefaultDict", "src/infi/asi/cdb/inquiry/vpd_pages/__init__.py: SCSI_PERIPHERAL_DEVICE_TYPE", "src/infi/asi/cdb/inquiry/vpd_pages/__init__.py: SCSI_VPD_NAME", "src/infi/asi/cdb/inquiry/vpd_pages/__init__.py: SCSI_DESIGNATOR_TYPES", "src/infi/asi/cdb/diagnostic/ses_pages/configuration.py: ELEMENT_TYPE_CODES", "src/infi/asi/cdb/diagnostic/ses_pages/enclosure_status.py: ELEMENT_STATUS_CODE"]}
{"id": "C91", "title": "Windows: the structures of overlapped requests are what the operating system expects", "statement": "For every event handle, the buffer passed to DeviceIoControl and GetOverlappedResult is an OVERLAPPED structure as a C compiler lays it out, with the handle in hEvent and zeros elsewhere; for every list of handles, the memory passed to WaitForMultipleObjects is the array of these handles in this order; the control code is the one of the header file.", "quantifier": "all handles the system may return, all lists of handles of any length, 32 and 64 bit", "why_tests_cant": "The structures are built with format strings whose padding depends on the data model; a wrong one works on one of them and only for some handles, and the tests do not run on Windows.", "anchors": ["src/infi/asi/win32.py: overlapped_struct_from_event", "src/infi/asi/win32.py: WaitForMultipleObjects", "src/infi/asi/win32.py: Win32AsyncFile._create_overlapped_struct", "src/infi/asi/win32.py: IOCTL_SCSI_PASS_THROUGH_DIRECT"]}
{"id": "C92", "title": "Windows: a program that closes its files has given back all handles", "statement": "After any program of opening, using and closing device files, if all files are closed then the process has exactly the handles open it had before.", "quantifier": "all programs of any length, all ways in which the operating system chooses handles, all limits on their number", "why_tests_cant": "A leaked handle has no effect until the process runs out of them, after more requests than any test makes.", "anchors": ["src/infi/asi/win32.py: Win32AsyncFile.ioctl", "src/infi/asi/win32.py: Win32AsyncFile._create_overlapped_struct", "src/infi/asi/win32.py: Win32File.close"]}
{"id": "C93", "title": "A file object acts on the file it was made for, or on none", "statement": "Whatever the program and the other code of the process open and close, in any order: reading, writing and closing through a file object of the library acts on the open file the object was made for, on no file at all once that was closed, and never on a file of somebody else.", "quantifier": "all programs of any length, any number of file objects and of files of other code, all ways in which the operating system chooses numbers for open files", "why_tests_cant": "Needs the operating system to give a number out again between the closing of an object and another use of it, which depends on what all other code of the process does.", "anchors": ["src/infi/asi/unix.py: UnixFile", "src/infi/asi/win32.py: Win32File", "src/infi/asi/executers.py"]}
{"id": "C94", "title": "The number of the descriptor a device is opened with makes no difference", "statement": "A session on a device behind the Linux sg driver has the same results whatever number the operating system gave to the open device.", "quantifier": "all descriptors, all devices, all sequences of commands, all queue sizes", "why_tests_cant": "Test processes have a handful of files open, so they only see small descriptors.", "anchors": ["src/infi/asi/unix.py: UnixFile.read", "src/infi/asi/linux.py: LinuxCommandExecuter._os_receive"]}
{"id": "C95", "title": "Computers that share a disk see one disk, and a lock kept on it excludes", "statement": "Any number of computers on any platforms execute commands on one disk in any order: the disk and the callers see one sequence of operations on an array of bytes. Computers that take a lock with COMPARE AND WRITE on a block of the disk never believe to hold it at the same time, and an attempt succeeds just if nobody holds it.", "quantifier": "all numbers of computers, all mixes of platforms, all interleavings of all commands, all disks and locks", "why_tests_cant": "Interleavings of several computers on shared hardware cannot be enumerated, and unit tests have neither the computers nor the disk.", "anchors": ["src/infi/asi/coroutines/sync_adapter.py", "src/infi/asi/__init__.py: CommandExecuterBase", "src/infi/asi/linux.py", "src/infi/asi/cdb/compare_and_write.py"]}
{"id": "C96", "title": "A computer whose registration was preempted might as well be switched off", "statement": "After a computer's PREEMPT of another's registration has returned on a reserved disk, and as long as the fenced computer does not register again and the others keep the reservation, nothing the fenced computer sends makes a difference to anybody else: contents, reservations and all results of the others are as if it had sent nothing; and each of its writes raises.", "quantifier": "all numbers of computers, all mixes of platforms, all commands that can be built, all interleavings, all states of the disk and its registrations", "why_tests_cant": "A non-interference property compares two executions of several computers on shared hardware; unit tests have neither the computers nor a disk with reservations.", "anchors": ["src/infi/asi/coroutines/sync_adapter.py", "src/infi/asi/__init__.py: CommandExecuterBase", "src/infi/asi/linux.py", "src/infi/asi/cdb/persist/output.py"]}
{"id": "C97", "title": "What a device can make a decoder do is bounded by what it sends", "statement": "Whatever counts, lengths and sizes a device writes into a response, decoding it ends (with an object or an exception), and the lists of the decoded object have together no more entries than the response has bytes; likewise sense data. Loops over elements that are read as long as bytes remain, or up to an announced length, never read an element that takes nothing.", "quantifier": "all responses of all lengths, all commands with a decoder, all configurations of enclosures, both releases of the buffer library", "why_tests_cant": "A fuzzer sees a loop that does not end only when it hits the right bytes, and cannot show that none exist; the bound relates all nested counts to the length for all inputs.", "anchors": ["src/infi/asi/cdb/inquiry/vpd_pages/designators.py", "src/infi/asi/cdb/report_luns.py", "src/infi/asi/cdb/rtpg.py", "src/infi/asi/cdb/diagnostic/ses_pages/configuration.py", "src/infi/asi/cdb/persist/input.py", "src/infi/asi/sense/__init__.py"]}
{"id": "C98", "title": "Programs may decide what to do next by what they were told, and the loop for all registered keys ends", "statement": "Whatever a program does, choosing each command from what the ones before returned or raised, through the library it ends with the same result, after the same number of commands and leaving the device in the same state as if it talked to the device itself; it ends through the library exactly when it ends without. In particular a program that uses a disk ends as if it used an array of bytes. The loop that reads the registered keys, and reads them again with required_allocation_length() until they fit, ends whatever other hosts do meanwhile, after at most one command more than the unit has room for registrations, with the keys registered at one moment, or with the unit attention the unit had for us.", "quantifier": "all programs, all devices, all contents, all actions of other hosts at all times, all starting lengths, four platforms", "why_tests_cant": "Programs and the interference of other hosts are unbounded; a test runs one program against one schedule. That a loop always ends needs a measure and an argument over all schedules.", "anchors": ["src/infi/asi/__init__.py", "src/infi/asi/executers.py", "src/infi/asi/coroutines/sync_adapter.py", "src/infi/asi/cdb/persist/input.py"]}
{"id": "C99", "title": "Updates of a block with COMPARE AND WRITE by several computers are not lost", "statement": "Several computers, each with its own operating system, update the same block of a disk: read it, compute the new content, exchange the old for the new with CompareAndWriteCommand, and begin again when that raises AsiCheckConditionError. Whatever the order in which they take turns, and whatever else they do to other blocks, at the end the block holds exactly the updates whose call returned, each applied to what the ones before left; no call fails otherwise; and a computer begins again at most as often as others updated the block in the meantime.", "quantifier": "all numbers of computers, all mixtures of platforms, all functions that compute the new content, all schedules, all other commands that spare the block, all contents", "why_tests_cant": "The claim is about every interleaving of any number of computers; a test tries one, and lost updates show only in some.", "anchors": ["src/infi/asi/cdb/compare_and_write.py", "src/infi/asi/cdb/read.py", "src/infi/asi/executers.py", "src/infi/asi/linux.py: LinuxIoctlCommandExecuter"]}
{"id": "C100", "title": "Linux: executers in one process do not disturb each other", "statement": "A program has an executer for each of its devices, with commands outstanding at all of them, and objects of its own. All buffers come from one allocator, and the drivers write to them whenever the devices get to it. What the user of each executer is told, and what its device does, is as if only the commands of that executer existed: exactly as in a process in which the executer is alone.", "quantifier": "all numbers of executers, all queue sizes and timeouts, all interleavings of sends, completions and responses at all devices, all allocators, direct and buffered transfers, 32 and 64 bit", "why_tests_cant": "A buffer of one device that is given up too early shows in the answer of another device only when the allocator hands it out again at the right moment; tests run with one device at a time and without a real one.", "anchors": ["src/infi/asi/__init__.py: CommandExecuterBase", "src/infi/asi/linux.py: LinuxCommandExecuter", "src/infi/asi/linux.py: SGIO.create", "src/infi/asi/__init__.py: gevent_friendly"]}
{"id": "C101", "title": "Programs that use several devices see exactly those devices, and the copy of a disk is a copy", "statement": "A program uses any number of executers, one command at a time, deciding what to do next, and on which device, by what it was told. It ends exactly when it would end using the devices themselves, after as many commands, with the same result, leaving every device in the same state. In particular, a program that reads the capacity of a disk and then copies it, n blocks at a time, to another of the same block size copies everything and nothing else, leaves the source as it was, and needs 1 + 2 * ceil(blocks / n) commands; when the target is too small it ends with the error of the first write that does not fit, and everything before that is copied.", "quantifier": "all programs, all devices, all numbers of executers, all timeouts, on Linux, Solaris, AIX and Windows; for the copy, all disks, all contents, all n from 1 to 2^32 - 1", "why_tests_cant": "Tests do not have two devices, and whether the loop at the end of a disk of any size reads and writes the right blocks cannot be tried for all sizes.", "anchors": ["src/infi/asi/__init__.py: CommandExecuterBase.call", "src/infi/asi/executers.py: *", "src/infi/asi/coroutines/sync_adapter.py: sync_wait", "src/infi/asi/cdb/read.py: Read16Command", "src/infi/asi/cdb/write.py: Write16Command", "src/infi/asi/cdb/read_capacity.py: ReadCapacity16Command"]}
{"id": "C102", "title": "A command repeated while it ends with UNIT ATTENTION is carried out once", "statement": "On a disk that several hosts use and reserve, a program that executes commands and executes each again as long as the exception says UNIT ATTENTION has every command carried out exactly once: with everything the other hosts do in between, it ends with the same results and leaves the disk with the same contents and reservations as a program whose commands meet no unit attention, and it executes exactly as many commands more as there were unit attentions. A repeated command never waits for ever: there are no more unit attentions than turns of the other hosts, and one.", "quantifier": "all programs, all disks, all contents and reservations, everything other hosts do at any time, all timeouts, on Linux, Solaris, AIX and Windows", "why_tests_cant": "Whether a write was carried out twice, or not at all, shows only with a unit attention at the right moment and other hosts writing in between.", "anchors": ["src/infi/asi/__init__.py: CommandExecuterBase.call", "src/infi/asi/errors.py: AsiCheckConditionError", "src/infi/asi/sense/__init__.py: get_sense_object_from_buffer", "src/infi/asi/sense/__init__.py: SCSI_SENSE_KEY", "src/infi/asi/coroutines/sync_adapter.py: sync_wait"]}
{"id": "C103", "title": "Data replaced with two FUA writes is the old or the new after any interruption", "statement": "Data is kept in one of two places of a disk and a block says in which. A program writes new data to the other place and then that block, with WRITE commands whose fua is set, each executed again while the exception says UNIT ATTENTION. It ends. When it is stopped after any number of commands, and whatever the disk moves from its cache to the medium and however often it loses power, then and later, a program that reads that block and then the place it names, with the same executer or another one, ends and has the old data or the new data, complete; the new if the first program had ended. Without fua this is not so.", "quantifier": "all disks, places, contents and data, all numbers of commands after which the program is stopped, all losses of power and all movements of data at any time, all timeouts, on Linux, Solaris, AIX and Windows", "why_tests_cant": "A test cannot lose power at every moment, nor choose what the disk had written by then.", "anchors": ["src/infi/asi/cdb/write.py: Write10Command.fua", "src/infi/asi/cdb/read.py: Read10Command", "src/infi/asi/__init__.py: CommandExecuterBase.call", "src/infi/asi/errors.py: AsiCheckConditionError", "src/infi/asi/coroutines/sync_adapter.py: sync_wait"]}
{"id": "C104", "title": "A record replaced again and again, by programs that are interrupted, on a disk that loses power in the middle of commands", "statement": "The record of C103 on a disk that may also lose power while it carries out a command: then some of the blocks written are on the medium and others are not, and the command ends with UNIT ATTENTION. A program looks where the record is, writes the other place and then the block that says which place counts, with fua. It is run any number of times with other data each time, with the same executer or others, and each run may be stopped after any number of commands; programs that read the record are run in between. No run that is not stopped fails or goes on for ever. A program that then reads the record ends and has, complete, what was there at first or the data of one of the runs, and all later runs were stopped before they ended. Overwriting the record in place with one WRITE with fua does not have this property.", "quantifier": "all disks, places, contents and data, all numbers of runs and of commands after which they are stopped, all losses of power between commands and during them, all timeouts, on Linux, Solaris, AIX and Windows", "why_tests_cant": "A test cannot lose power at every moment of every command, nor choose which blocks had been written by then, for histories of any length.", "anchors": ["src/infi/asi/cdb/write.py: Write10Command.fua", "src/infi/asi/cdb/read.py: Read10Command", "src/infi/asi/__init__.py: CommandExecuterBase.call", "src/infi/asi/errors.py: AsiCheckConditionError", "src/infi/asi/coroutines/sync_adapter.py: sync_wait"]}
{"id": "C105", "title": "Commands that are given again after they were aborted", "statement": "A disk may end any commands with ABORTED COMMAND, having written some of their blocks, all, or none. A program that gives a command again when AsiCheckConditionError says ABORTED_COMMAND, and uses TEST UNIT READY, READ CAPACITY, READ, WRITE, WRITE SAME and UNMAP, ends in one way only, has the same result and leaves the same contents as on a disk that does not abort, and executes as many commands more as were aborted. For COMPARE AND WRITE this is not so: MISCOMPARE may be raised though the block was as expected and was replaced. A program that then reads the block and looks whether it has the new data says correctly whether it has, and has replaced it if it was the old data.", "quantifier": "all programs, disks, contents and data, all choices of the commands that are aborted and of the blocks they have written, all timeouts, on Linux, Solaris, AIX and Windows", "why_tests_cant": "A test cannot try every program with every choice of the commands that are aborted, and of what they wrote before.", "anchors": ["src/infi/asi/errors.py: AsiCheckConditionError", "src/infi/asi/sense/__init__.py: get_sense_object_from_buffer", "src/infi/asi/cdb/__init__.py", "src/infi/asi/__init__.py: CommandExecuterBase.call", "src/infi/asi/coroutines/sync_adapter.py: sync_wait"]}
{"id": "C106", "title": "A disk with several paths, one of which is active", "statement": "A disk is reached by several paths, with an executer for each in one process. One path is active; the others end every command with NOT READY, TARGET PORT IN STANDBY STATE, and do not carry it out; the controller makes another path active when it likes. A program that gives a command again with the executer of the next path when AsiCheckConditionError says NOT_READY ends in one way only, has the same result and leaves the same contents as on a disk with one path: each command is carried out exactly once. Beginning with any path and each change of the active path cost at most one command more for each other path.", "quantifier": "all programs, disks and contents, all numbers of paths, all changes of the active path, all timeouts, on Linux, Solaris, AIX and Windows", "why_tests_cant": "A test cannot change the active path before every command of every program in every way.", "anchors": ["src/infi/asi/errors.py: AsiCheckConditionError", "src/infi/asi/sense/__init__.py: get_sense_object_from_buffer", "src/infi/asi/__init__.py: CommandExecuterBase.call", "src/infi/asi/__init__.py: create_platform_command_executer", "src/infi/asi/coroutines/sync_adapter.py: sync_wait"]}
{"id": "C107", "title": "Errors of the host adapter and the driver on Linux are told to the caller they belong to, and the executer goes on", "statement": "Whatever SCSI status, host status, driver status, sense data and data the sg driver reports for each command of a sequence: each caller is told about its own command; it gets data only if neither the device nor the host adapter nor the driver had an error, sense data if there is any, and an exception otherwise; the executer is usable afterwards. A program on a disk that does not use COMPARE AND WRITE, and gives a command again when it gets AsiSCSIError (and no subclass of it), has the same result and leaves the same contents as on a disk where nothing fails, though nobody knows how far the failed commands came.", "quantifier": "all sequences of commands, all reports of the driver, all devices; all programs without COMPARE AND WRITE, disks, contents, failures without sense data and all ways blocks can be written before them; both byte orders", "why_tests_cant": "A test cannot make a host adapter fail in every way at every command, nor write every part of the blocks before.", "anchors": ["src/infi/asi/linux.py: LinuxCommandExecuter._handle_raw_response", "src/infi/asi/linux.py: LinuxCommandExecuter._os_send", "src/infi/asi/linux.py: LinuxCommandExecuter._os_receive", "src/infi/asi/__init__.py: CommandExecuterBase.call", "src/infi/asi/errors.py: AsiSCSIError"]}
{"id": "C108", "title": "Calls of the operating system that fail are told to the caller they belong to, and the executer goes on", "statement": "The call that hands a command to the operating system (write to an sg device, ioctl on Solaris and AIX, DeviceIoControl on Windows) can fail, after any effect on the device and on the buffer of the caller. In a sequence of commands, each caller whose call failed gets OSError (AsiOSError on AIX and Windows), every other caller what the device answered to its own command, without anything left over from a failed one; each request reaches the device once; the executer is usable afterwards. A program on a disk that does not use COMPARE AND WRITE, and gives a command again when it gets that exception, has the same result and leaves the same contents as on a disk where nothing fails. On AIX with the ioctl of libc this is not so: a WRITE that never reached the disk is reported as done.", "quantifier": "all sequences of commands, all devices, all choices of the calls that fail and of their effects; all programs without COMPARE AND WRITE, disks and contents; on Linux (sg), Solaris, AIX with fcntl.ioctl, and Windows", "why_tests_cant": "A test cannot make every call of every program fail, nor choose what each had done before.", "anchors": ["src/infi/asi/__init__.py: CommandExecuterBase.call", "src/infi/asi/linux.py: LinuxCommandExecuter._os_send", "src/infi/asi/solaris.py: SolarisCommandExecuter._os_send", "src/infi/asi/aix.py: AixCommandExecuter._os_send", "src/infi/asi/aix.py: get_ioctl_function", "src/infi/asi/win32.py: Win32CommandExecuter._os_send", "src/infi/asi/errors.py: AsiOSError"]}
{"id": "C109", "title": "Programs that choose the path by what the target reports find a path that works", "statement": "A disk is reached by several paths; each leads to a port of a target whose groups of ports are in various states of asymmetric access, and the target changes groups and states when it likes. A program asks on one path after the other for the device identification page and for the target port groups, looks up in the objects of the library the relative target port and the access state of its group, and uses the first path that is active/optimized; when a command ends with NOT READY it looks again. If at any time one of the paths is active/optimized, the program ends, in one way only, with the result and contents it has on an array of bytes, its last path is one that can be used, and each change of the groups costs at most 2 n + 1 further commands for n paths. If the groups stay as they are, it uses the first active/optimized path and takes two commands for each path up to it.", "quantifier": "all programs, disks, contents, numbers of paths, designators, target port groups and sequences of changes; on Linux (sg), Solaris, AIX and Windows", "why_tests_cant": "A test cannot try every arrangement of ports and groups with every moment at which the target changes them, nor every program.", "anchors": ["src/infi/asi/cdb/rtpg.py: RTPGCommand", "src/infi/asi/cdb/inquiry/vpd_pages/device_identification.py: DeviceIdentificationVPDPageCommand", "src/infi/asi/cdb/inquiry/vpd_pages/designators.py: RelativeTargetPortDesignator", "src/infi/asi/__init__.py: CommandExecuterBase.call", "src/infi/asi/errors.py: AsiCheckConditionError", "src/infi/asi/linux.py: LinuxCommandExecuter", "src/infi/asi/solaris.py: SolarisCommandExecuter", "src/infi/asi/aix.py: AixCommandExecuter", "src/infi/asi/win32.py: Win32CommandExecuter"]}
{"id": "C110", "title": "Updates whose answers are lost are made once", "statement": "Computers share a disk, and each makes numbered updates of one block with COMPARE AND WRITE; the block says how many updates of each it has. Commands can be aborted by the disk, and calls of the operating system can fail, after the disk did what was asked or before, and the program cannot tell which. A program that after each such loss, and after each miscompare, reads the block, and takes its update as made if the block says so, makes each of its updates once: the contents of the disk are those that come about from what the others did, in this order, and one update of the program for each number, in the order of the numbers, each on the block as it was then. It ends, in one way only, with two commands for each update and at most two more for each thing that happens.", "quantifier": "all blocks, disks, contents, updates and numbers of updates that the block counts, all sequences of losses and of whatever the other computers do that keeps this count; on Linux (sg), Solaris, AIX (fcntl) and Windows", "why_tests_cant": "The claim is about every order of reads, exchanges, losses and updates of other computers, and about what cannot be seen by the program: whether an update with a lost answer was made.", "anchors": ["src/infi/asi/__init__.py: CommandExecuterBase.call", "src/infi/asi/cdb/compare_and_write.py: CompareAndWriteCommand", "src/infi/asi/cdb/read.py: Read16Command", "src/infi/asi/errors.py: AsiCheckConditionError", "src/infi/asi/linux.py: LinuxCommandExecuter._os_send", "src/infi/asi/solaris.py: SolarisCommandExecuter._os_send", "src/infi/asi/aix.py: AixCommandExecuter._os_send", "src/infi/asi/aix.py: get_ioctl_function", "src/infi/asi/win32.py: Win32CommandExecuter._os_send", "src/infi/asi/errors.py: AsiOSError"]}
{"id": "C111", "title": "Linux multipath: what programs see of a disk, and calls that fail", "statement": "A program that decides by what commands return or raise, on a disk behind the device mapper (linux_dm), and that gives a command again while it ends with OSError, ends, in one way only, with the result and the contents it has on an array of bytes that never tells of a failed operation (a failed read returns zeros, others are said to be done); whichever calls of ioctl fail, and however far the commands came, it executes as many commands more as failed. If no operation of the program fails, that is the array of bytes itself. In any sequence of commands, each caller whose call of ioctl failed gets OSError, every other caller the data of its own command, and each request reaches the device once. Programs that rely on being told of failures are not right on it: the search for a block that is not zero does not end at the end of a disk of zeros.", "quantifier": "all programs (without COMPARE AND WRITE where calls can fail), disks, contents, sequences of commands, choices of the calls that fail and of their effects", "why_tests_cant": "A test cannot try every program with every choice of failing calls, nor show that a program never ends.", "anchors": ["src/infi/asi/linux.py: LinuxIoctlCommandExecuter", "src/infi/asi/linux.py: LinuxIoctlCommandExecuter._os_send", "src/infi/asi/linux.py: LinuxIoctlCommandExecuter._os_receive", "src/infi/asi/linux.py: LinuxCommandExecuter._handle_raw_response", "src/infi/asi/executers.py: linux_dm", "src/infi/asi/__init__.py: CommandExecuterBase.call"]}
{"id": "C112", "title": "Linux: commands outstanding together, on a way that can fail", "statement": "With any number of commands outstanding together on the sg executer, up to the queue size, of which the driver does not take some (os.write raises) and for others reports errors of the device, of the host adapter or of its own, every callback gets the report of its own command: its own sense data if there is any, its own data if all went well, an error otherwise. A command that was not taken shows as an error of its own send and does not disturb the others. The device executes exactly the commands taken, each once and exactly as asked, and the executer lists as pending exactly the commands outstanding, never more than the queue size.", "quantifier": "all devices and host adapters, histories of sends, executions and responses in any order, commands, choices of the sends that fail, memory contents, byte orders", "why_tests_cant": "A test cannot try every interleaving of commands with every choice of failing writes and errors; it would need a driver that fails at a chosen write while other commands are outstanding.", "anchors": ["src/infi/asi/__init__.py: CommandExecuterBase.send", "src/infi/asi/__init__.py: CommandExecuterBase._process_pending_response", "src/infi/asi/__init__.py: CommandExecuterBase._next_packet_index", "src/infi/asi/linux.py: LinuxCommandExecuter._os_send", "src/infi/asi/linux.py: LinuxCommandExecuter._os_receive", "src/infi/asi/linux.py: LinuxCommandExecuter._handle_raw_response"]}
{"id": "C113", "title": "Linux: several users of one device, on ways that can fail", "statement": "Any number of users, each with an sg executer of their own and a way of their own to one device, send commands in any order, several outstanding together. On each way the driver may not take a command (os.write raises) or report errors of the host adapter or its own; different ways may fail at different commands. What all of them observe together is explained by one order in which the device executed commands: only commands the driver took, each at most once and as it was sent; whoever is told about a command is told the report on its execution in that order; and a command sent after another one was over, whoever sent that one, comes later in the order.", "quantifier": "all devices, numbers of users, ways and their failures, interleavings of sends, executions and responses, commands, memory contents, byte orders", "why_tests_cant": "A test cannot try every interleaving of several processes with every choice of failing writes and errors on each of their paths; it would need a device with several paths that fail on demand.", "anchors": ["src/infi/asi/__init__.py: CommandExecuterBase.send", "src/infi/asi/__init__.py: CommandExecuterBase._process_pending_response", "src/infi/asi/__init__.py: CommandExecuterBase._next_packet_index", "src/infi/asi/linux.py: LinuxCommandExecuter._os_send", "src/infi/asi/linux.py: LinuxCommandExecuter._os_receive", "src/infi/asi/linux.py: LinuxCommandExecuter._handle_raw_response"]}
{"id": "C114", "title": "Responses built with the library's classes read back as they were built", "statement": "The response classes can be used in both directions (simulators and tests build responses with them). An object of such a class whose numbers fit their fields, whose lists have as many elements as its counts and lengths say, can be packed; the bytes are a response of the standard, and reading them, whatever follows, gives the numbers and lists it was built with: status elements of every type, persistent reservation keys, reservation, capabilities and full status, copy operating parameters, target port groups in both formats.", "quantifier": "all numbers that fit, numbers of keys, descriptors, groups and ports, trailing bytes, and both sign conventions and orders of joined bits of the library", "why_tests_cant": "A test packs a few objects; a field that overlaps another or is written over only shows for values that differ in the shared bits.", "anchors": ["src/infi/asi/cdb/diagnostic/ses_pages/enclosure_status.py: EnclosureElementInfo", "src/infi/asi/cdb/persist/input.py: PersistentReserveInReadKeysResponse", "src/infi/asi/cdb/persist/input.py: PersistentReserveInReadReservationResponse", "src/infi/asi/cdb/persist/input.py: PersistentReserveInReportCapabilitiesResponse", "src/infi/asi/cdb/receive_copy_operating_parameters.py: ReceiveCopyOperatingParametersResponse", "src/infi/asi/cdb/rtpg.py: TargetPortGroupDescriptor", "src/infi/asi/cdb/rtpg.py: TargetPortGroupLengthOnlyResponse", "src/infi/asi/cdb/rtpg.py: TargetPortGroupExtendedResponse"]}
{"id": "C115", "title": "Windows: failures among commands sent ahead do not mix up or lose the others", "statement": "Commands are sent ahead, called and waited for on a synchronous Windows file, and DeviceIoControl may fail at any of them, before, while or after the device executes it. The failure is raised to the caller of that command as the system's error, its callback is never called, every other callback and call gets the device's answer to its own command, callbacks are called at most once, and after a wait every command that send accepted has had its callback called.", "quantifier": "all queue sizes, programs of send, call and wait, devices and states, failures at any of the commands with any effect on the device and on the command's own memory, allocators that keep outstanding commands apart, both word sizes", "why_tests_cant": "A test does not fail a call in the middle of others and look at the callbacks of the others; the loss needs a wrap round of the packet numbers.", "anchors": ["src/infi/asi/win32.py: Win32CommandExecuter._os_send", "src/infi/asi/win32.py: Win32CommandExecuter._os_receive", "src/infi/asi/win32.py: Win32File.ioctl", "src/infi/asi/__init__.py: CommandExecuterBase.send", "src/infi/asi/__init__.py: CommandExecuterBase.call", "src/infi/asi/__init__.py: CommandExecuterBase.wait"]}
{"id": "C116", "title": "Linux multipath: failures among commands sent ahead do not mix up or lose the others", "statement": "On the executer for multipath devices commands are sent ahead, called and waited for, and ioctl may fail at any of them, before, while or after the device executes it. The failure is raised to the caller of that command as the system's error and nothing else is ever raised, the callback of a failing command is never called, every other callback and call gets the data the device sent for its own command, callbacks are called at most once, and after a wait every command that send accepted has had its callback called.", "quantifier": "all queue sizes, programs of send, call and wait, devices and states, failures at any of the commands with any effect on the device and on memory, all memory placements, both word sizes", "why_tests_cant": "A test does not fail a call in the middle of others and look at what becomes of the others; the request block of the failing command stays in the executer's one buffer.", "anchors": ["src/infi/asi/linux.py: LinuxIoctlCommandExecuter", "src/infi/asi/linux.py: LinuxIoctlCommandExecuter._os_send", "src/infi/asi/linux.py: LinuxIoctlCommandExecuter._os_receive", "src/infi/asi/__init__.py: CommandExecuterBase.send", "src/infi/asi/__init__.py: CommandExecuterBase.call", "src/infi/asi/__init__.py: CommandExecuterBase.wait", "src/infi/asi/executers.py: linux_dm"]}
{"id": "C117", "title": "Solaris and AIX: failures among commands sent ahead do not mix up or lose the others", "statement": "On Solaris and AIX, on an executer with its default queue size, commands are sent ahead, called and waited for, and ioctl may fail at any of them, before, while or after the device executes it. The failure is raised to the caller of that command as the system's error and nothing else is ever raised, the callback of a failing command is never called, every other callback and call gets the device's answer to its own command, data or error, callbacks are called at most once, and after a wait every command that send accepted has had its callback called.", "quantifier": "all programs of send, call and wait, devices and states, failures at any of the commands with any effect on the device, all memory placements, both word sizes on Solaris, both ioctl functions on AIX", "why_tests_cant": "A test does not fail a call in the middle of others and look at what becomes of the others, nor has it both operating systems.", "anchors": ["src/infi/asi/solaris.py: SolarisCommandExecuter._os_send", "src/infi/asi/solaris.py: SolarisCommandExecuter._os_receive", "src/infi/asi/solaris.py: SolarisCommandExecuter._handle_raw_response", "src/infi/asi/aix.py: AixCommandExecuter._os_send", "src/infi/asi/aix.py: AixCommandExecuter._os_receive", "src/infi/asi/aix.py: get_ioctl_function", "src/infi/asi/__init__.py: CommandExecuterBase.send", "src/infi/asi/__init__.py: CommandExecuterBase.call", "src/infi/asi/__init__.py: CommandExecuterBase.wait"]}

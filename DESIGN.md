# infi.asi — formal model and proofs: design

The code under study is the Python package in `/repo/src/infi/asi` (a library that builds SCSI commands,
hands them to the operating system, and decodes the responses).  Everything here was written by reading that
source as text; nothing was run.

## 1. Trusted base

* Lean 4.33.0's kernel.  Axioms allowed: `propext`, `Classical.choice`, `Quot.sound` (Lean's own).  No axiom of
  our own, no `sorry`, no `native_decide`, no `bv_decide`.
* The reading of the Python source: every definition of the model cites file and lines.
* Python semantics assumed: unbounded integers, `//` and `%` floor semantics, `dict` with insertion order,
  generator protocol (`send`, `throw`, `StopIteration`), `try/except/finally`, `assert` enabled,
  `struct.pack` refusing out-of-range integers, `fcntl.ioctl` with an immutable `bytes` argument working on a
  private copy (so the argument is not updated), `ctypes` structure layout (natural alignment unless `_pack_`).
* `infi.instruct` (external library, source not available).  Assumptions:
  * *Struct*: fields are serialised one after the other; `UBIntN` is big-endian and refuses values outside
    `[0, 2^N)`; inside `BitFields` the first declared field takes the least significant bits of the first byte
    (confirmed by the repr in README.md and `tests/test_sense.py`); `Padding`, `BytePadding`, `BitPadding` write
    zeros and skip on reading; reading past the end of the input raises; `ConstField` compares on reading;
    `SumSizeArray` reads elements until the announced number of bytes is used up.
  * *Buffer*: `bytes_ref[a:b]` of a `be_*` field is big-endian; `.bits[i:j]` selects bits `i..j-1` counted from the
    least significant bit; unassigned bits are zero after `pack`; the packed size is the end of the last field;
    `set_before_pack` overrides the value; `unpack` reports the end of the last field unpacked as the number
    of bytes consumed; a slice past the end of the input is cut short (Python slice), an integer field that
    finds fewer bytes than it needs raises.
  * Whether `be_int_field` without `sign` is signed for whole-byte fields (two's complement) is unknown; the parsers take it as a
    parameter `sg` and theorems hold for both values, with `sg = true → ... < 128` where it matters; `_false` theorems that
    need `sg = true` say so.  Sub-byte bit fields are zero-extended.  The tests speak for signed: `test_ses_pages.py: test_page_01` can only
    pass if the default is signed (`Recorded.lean`), and `configuration.py:80` asks for `sign='unsigned'` explicitly.  If so, the `_false` theorems with
    `sg = true` (C39, C46, C47) are about the code as it runs.
  * What the library does with a *bit* field value that is too large is unknown: the model takes it as a
    parameter (`Lib.enc`) about which only "values that fit are stored as they are, and whatever is stored fits"
    is assumed, and theorems hold for every such library.
  * Order of the parts of a concatenated reference (`bytes_ref[5] + bytes_ref[4].bits[0:4]`) is unknown; both
    orders are modelled (`BufLib.lowFirst`).
  * How `str_field` decodes bytes above 7Fh is unknown (`BufLib.text`); ASCII is decoded as itself.  A declared
    `padding` is stripped on reading and written on packing.  Without `padding`, reading applies `BufLib.trim`, of which only this is
    assumed: it returns a prefix, and a text ending in a visible ASCII character followed by NULs only or by spaces only is returned without them
    (the tests of the repository show both being dropped: `tests/test_inquiry.py`); packing writes NULs.  Packing a text that does not fit is unknown (`BufLib.packOther`).
  * Packing (C76): a number over a concatenated reference is cut in the order in which it is joined on reading; a byte string exactly as long as its
    place is stored as it is, others are unknown (parameter `blob`); the elements of a list are packed one after the other; `set_before_pack` is evaluated
    before anything is packed, and `self_ref.x` of an attribute the object does not have raises `AttributeError`.
* The operating system is an adversary (arbitrary responses), restricted only where a theorem's hypotheses say so.  The end-to-end theorems (C52 and
  later) put an ideal driver in front of the device, which reports the device's status in the completed block.  For Solaris this means that the
  ioctl succeeds whatever the status; C74 says what happens with a driver that fails it instead.

Memory handed to the operating system is a flat map from addresses to bytes; where ctypes places the request block,
the CDB, the sense buffer and the data buffer is an arbitrary oracle (`Alloc`), restricted only to "the regions do not overlap
and fit the address space" where a theorem says `Separate`.  That the memory of a request in flight is not given to
anybody else is part of the oracle; C78 says where Python's reference counts warrant this on Windows and where they do not,
C87 for the sg executer of Linux.

Not modelled: logging, `repr`/message texts (except sense code names, C42, and the texts for failed commands, C89; what `repr` gives for a sense object is arbitrary there), `gevent`'s own scheduling (any schedule is allowed, C68), memory reclamation, tracebacks, platform
detection beyond its decision table, garbage collection of abandoned generators (except those of `wait_for`, C78), `select` raising in `UnixFile.read` other than for large descriptors (C94).

## 2. Layout of the Lean project (`lean/Verif`)

| module | contents |
| --- | --- |
| `Base` | Python exceptions as values, bytes, big-endian encoding, bit selection, lemmas |
| `Instruct` | model of the two `infi.instruct` flavours (sequential `Struct`, positional `Buffer`) |
| `Executer` | `CommandExecuterBase` as a state machine against an adversarial OS |
| `Coroutine` | generators as arbitrary resumable machines, the driver of `sync_adapter.py`, direct-style semantics |
| `Reactor` | `Win32AsyncReactor` |
| `Platform/*` | Linux, Windows, AIX, Solaris request blocks and response classification, ctypes layouts |
| `Unix`, `Contexts` | `UnixFile.read`, the context managers |
| `Cdb/*` | all command descriptor blocks and parameter lists |
| `Parse/*` | response parsers (`Buffer.unpack` with positional fields, arrays by count and by size), one module per family |
| `Sense/*` | sense data and code names (`AscTable` is transcribed from `asc.py` by a script) |
| `ExecuterGen`, `Platform/Generators` | the executers as the generators they are: `execute`, `call`, `send`, `_process`, `wait`, `_os_send`, `_os_receive` |
| `ReactorShared` | the reactor over coroutines that share a world (one executer, one memory), events of the operating system interleaved |
| `Release` | what becomes of the coroutines `wait_for` leaves behind when it raises (Python closes their generators), and who has a reference to a request's memory |
| `Platform/Win32Ahead` | programs of `send`, `call` and `wait` on the Windows executer, whose requests complete while they are sent (`Win32File.ioctl`), with the list `incoming_packets` popped from its end |
| `Platform/IoctlAhead` | programs of `send`, `call` and `wait` on the executer for multipath devices (linux.py:279-293), with `self.buffer` |
| `Platform/PacketZero` | what `send`, `call` and `wait` do on executers whose responses always carry packet number 0 (solaris.py:210, aix.py:389), with any queue size |
| `ReactorWaits` | the reactor's `_wait_for_events` line by line: dictionary of events, `WaitForMultipleObjects`, the number it returns |
| `Platform/Win32Async` | `Win32AsyncFile`, tokens, the executer on such a file; the I/O manager is a parameter |
| `AsyncRun`, `AsyncInv` | runs of one command between events; the invariant of the reactor for C60 |
| `Commands` | the command objects with their page tables: which class a page number gives, which parser its data goes through |
| `Greenlets` | greenlets sharing one executer, as a transition system |
| `Callbacks` | callbacks as programs that use the executer, with the stack |
| `Adapter` | `CommandExecuterAdapter` with `sync_call`: `execute` given the adapter |
| `Options` | command objects whose attributes are assigned between construction and execution |
| `Sharing` | programs with several command objects and the control objects they refer to; what becomes of `DEFAULT_CONTROL` and `DEFAULT_CONTROL_BUFFER` is a parameter (`shared`, `copied`, `late`) |
| `Threads` | threads that share one executer of `linux.py`: one step per access to what they share (`packet_index`, `pending_packets`, the file, the `result` lists) |
| `Heap` | the sg executer in a program with objects of its own and any `malloc`: which memory is in use, what an exception after the write gives up |
| `Messages` | the texts of the `AsiSCSIError`s of the four platforms, as lists of characters |
| `Names` | the tables of names, and `CustomDefaultDict` as a dictionary that lookups change; `hex` as in Python 3 (no `L`) |
| `Platform/Win32Overlapped` | `overlapped_struct_from_event`, the array of events, `struct.pack` in native mode; the handles that files and requests open and close |
| `Files` | which open file the methods of `UnixFile` and `Win32File` act on, in a process that opens and closes other files |
| `FenceLemmas` | facts about the reservation state machine of `Spec.Fence` alone (records stay in order, fences stay, a fenced host changes nothing) |
| `Spec/Patient`, `Props/Patient` | programs that repeat commands while there is a unit attention |
| `Spec/Journal`, `Props/Journal` | data replaced in two steps, interrupted at any time |
| `Spec/Torn`, `Props/Torn` | the same again and again, with power lost during commands |
| `Cdb/Constants`, `Props/NamedActions` | names of service actions and reservation types |
| `Spec/Aborted`, `Props/Aborted` | commands given again after ABORTED COMMAND |
| `Spec/Paths`, `Props/Paths` | programs that change to another path |
| `Spec/Link`, `Props/Link` | errors of the host adapter and the driver |
| `Spec/Refused`, `Props/Refused` | calls of the operating system that fail |
| `Spec/Ports`, `Props/Ports` | programs that choose the path by what the target reports |
| `Spec/Ledger`, `Props/Ledger` | numbered updates of a block of a shared disk, with answers that are lost |
| `Props/MappedPrograms` | programs on a disk behind the device mapper, with calls that fail |
| `Spec/LinkQueue`, `Props/LinkQueue` | commands outstanding together on Linux, with writes that fail and errors of the host adapter and the driver |
| `Spec/LinkSeveral`, `LinkSeveralLemmas`, `Props/LinkSeveral` | several users of one device, each on a way of their own that can fail |
| `Spec/LinkSeveralDisk`, `Props/LinkSeveralDisk` | the same on a disk: what one writes the others read |
| `Parse/PackResponses`, `Props/PackResponses`, `Props/PackStandard`, `Props/PackFullStatus` | packing of the response classes outside INQUIRY |
| `Props/MoveBack` | a transport identifier that was read, packed again and given to REGISTER AND MOVE |
| `Spec/PipelineFaults`, `Platform/Win32AheadFaults`, `Props/PipelineFaults` | Windows, synchronous file: commands sent ahead when calls of the system fail |
| `Spec/LatestFaults`, `Platform/IoctlAheadFaults`, `Props/MappedAheadFaults` | Linux multipath: commands sent ahead when calls of the system fail |
| `Platform/SingleAhead`, `Props/SingleAhead` | Solaris and AIX: commands sent ahead when calls of the system fail, with the default queue size |
| `Spec/Clone`, `Props/Clone` | programs that use several executers; the copy of a disk as a program of a user of the library |
| `Spec/Client`, `Props/Client` | programs that choose their commands by the results of earlier ones: any state machine whose commands are executed one after the other; the loop over READ KEYS as a program of a user of the library |
| `Spec/Updates`, `Props/Updates` | computers that update a block of a shared disk with READ and COMPARE AND WRITE, as a program of a user of the library |
| `Company`, `CompanyLemmas`, `Props/Company` | several executers in one process, sharing its memory (`__init__.py:72-75`, `linux.py:216-220`) |
| `CallLemmas` | what `call` does on an idle executer, used by the platform theorems |
| `Spec/Platform`, `Spec/CLayout` | what the drivers read at literal C offsets; C layout rules and the quoted C declarations |
| `Spec/*` | what the standards say, written without reference to the model |
| `Examples/*` | concrete programs, devices and memories to which theorems are applied, showing that their hypotheses can be met; no claims |
| `Recorded` | the byte strings recorded in `/repo/tests` run through the model with the assertions of those tests: tests of the model's fidelity, not proofs; concrete libraries meeting the assumptions of `BufLib` |
| `Props/*` | the property theorems only, each with a non-vacuity example beside it |

## 3. Properties: what is modelled and how it is proved

* **C01–C08** (`Executer`): state = dict of outstanding packets (association list), packet counter, queue size.
  Operations `send` (prepare may raise, OS send may raise), `process` (OS gives any `(result, packet id)` or raises),
  `call`, `wait` take the OS's behaviour as arguments.  Histories are lists of operations; a ghost ledger
  records which accepted command each packet stands for.  C01 is *false*: a concrete history shows a response
  delivered to the wrong caller (packet numbers are reused while in flight after out-of-order completion, or
  after failed sends).  The theorem proved for all histories has the exact condition "the packet number handed out is not
  in flight" (`C01_exact`, and `C67_exact` on the sg driver, prove that no weaker one will do: after a reuse some accepted command is never answered); C02 derives this condition for serial use and for FIFO completion by an invariant on the counter.
  C03, C05, C06, C07, C08 by invariants / induction over answer lists.
* **C09–C12** (`Coroutine`): a program is an arbitrary type of generator states with a `resume` function
  (so infinite behaviours are included); the driver is a small-step machine with an explicit stack, transcribed from
  `_next_step`; the specification is a big-step relation in direct style.  Both directions of adequacy are
  proved by induction.  C10's second half ("handled stays handled") is false for a coroutine that handles an exception
  and finishes without another yield; negation with witness, and the theorem for the others.
* **C13–C14** (`Reactor`): reactor as a step machine with the index of the signalled event chosen by a schedule;
  commutation with independent synchronous runs; termination measure = remaining I/Os.
* **C15–C17, C19–C21**: decision functions over all field values; C16, C17 negated with witnesses.
* **C18, C22**: request block construction as functions on records; ctypes layout algorithm, theorem that it never overlaps,
  and the tables compared with the C declarations.
* **C23–C24**: event traces; polling loop over an arbitrary clock and readiness oracle.
* **C25–C36**: command constructors as functions to `Except`; the specification is the byte string of the
  standard; equality for all arguments, plus injectivity for C29.  C27, C30 (data length), C31 (data length), C32 (data length field),
  C34 (APTPL) are violated by the code: negations with witnesses next to the `_partial` theorems.
* **C37–C47**: parsers as functions on byte lists; specification encoders from the standards; round trips by
  induction on lists.  C39 (extended), C40 (byte 17), C41, C42 (FFh boundaries), C47 (model number) violated:
  negations with witnesses.
* **C52–C55**: end to end through `call`: an arbitrary device (state machine) behind a model of the driver; by induction over
  the command sequence the device sees exactly the commands asked for and the caller exactly its answers.
* **C48**: generic theorem about `Instruct`, by induction on declarations.
* **C49**: both concatenation orders; whichever the library uses, one of the fields is wrong.
* **C58**: all byte strings, by the generic lemmas about `unpackFields`.
* **C50** (`Commands`): page number to command class and data class, finite tables with default; every page number, every class.
* **C51**: the generators of `execute`, `call`, `send`, `_process`, `wait` and of the operating system layer (`ExecuterGen`, `Platform/Generators`) as one
  machine of `Coroutine`, run by the driver; a refinement theorem shows that they compute `Executer.call` and `Executer.wait` (so C01–C08 and C15–C21 are
  about what the generators do), then sequences of `execute`s in front of an arbitrary device on each platform.

* **C59**: `Spec/Disk` has the target's side (CDBs decoded as SBC-3 says, acting on an array of bytes) and the caller's side (operations on such an array); every
  command of the list simulates its operation on every platform that delivers answers as `Delivers` says, then induction over the sequence on top of C51.
  For UNMAP the disk is one that reads unmapped blocks as zeros, checks all ranges before it unmaps any, and does not mind that UNMAP DATA LENGTH is one too
  large (C32).
* **C60**: reactor steps and device steps interleaved in any order (`ReactorShared.Step`); an invariant relates every reachable state to a history (phase of every
  command, order in which the device was asked), a measure bounds the steps.  The regions of memory of the packets must not overlap for
  packet numbers below the queue size.  Event handles are numbers never used twice; `WaitForMultipleObjects` picks any signalled event or raises; its
  limit of 64 handles is left out here (it is in C77); the layout of the OVERLAPPED structure is in C91.
* **C61**: the I/O manager is arbitrary for the negative theorems; the positive one takes the one of `Spec/WindowsAsync`.
* **C62**: `Spec/Target` is a target that holds arbitrary pages; the relation `Tells` says, command by command, what its caller has to learn. Each decoder is
  taken on the page followed by what the platform puts behind it: nothing on Windows (`TellsExactly`), zeros up to the allocation length elsewhere
  (`TellsFilled`).
* **C63**: C51 on each platform, for the commands that hand on data as it came.
* **C64**: `Adapter` has `execute` as it runs when given the adapter; what `sync_call(executer.call, ..)` does there is a function tied to the
  coroutine model only by `WrapsCall` (and shown to exist). Both runs are computed from the same evaluation of `call`.
* **C65**: `Spec/Reservations` has a unit with registrations and a reservation, and what any number of other hosts do to it before each of our commands; command by
  command as C59. Outside it: tasks aborted by a preemption, what a reservation does to READ and WRITE (C69), reservations surviving a power loss.
* **C66**: an ideal device behind `ioctl(SG_IO)`, session as C51, disk as C59; `Spec/Mapped` says what a caller is told who is never told of a
  failure. The theorem `C66_told` is exact: this is what the code does for all sequences.
* **C67**: `Spec/Queue` is a queue of numbered commands without packet numbers or memory; the executer of linux.py runs in front of a queueing sg driver
  (`Props/Queue`), memory included. The invariant keeps, for every outstanding command, its table entry and the contents of all its buffers. The
  allocator is one page set per packet number; sg.c's own limit (16 requests) only has to be at least the queue size (15). Callbacks are
  recorded, they do not send.
* **C68**: `Greenlets.lean` is a transition system: any number of greenlets, each somewhere in `call` on one executer state, with a switch after every write,
  every read and (if patched) in the polling loop. An invariant ties `pending_packets` to the commands at the device, unread, held by a greenlet; what is
  proved holds for all schedules. Writes may fail with any of a set of errors (`Step.unsent`): the packet number is used up and the call raises (`C68_unsent`). `C68_false` shows a reachable state and proves of every continuation without further calls that the call times out.
* **C69, C70**: `Spec/SharedDisk` joins the disk of C59 with the reservations of C65: a reservation decides who may read and write, and the other hosts use the disk
  too. C70 follows from C69 by an invariant over what other hosts can do: they get past an exclusive reservation only by an action that leaves a unit
  attention for us, and a waiting unit attention is reported before anything is done.
* **C71**: `Callbacks.lean` adds Python's stack to the executer of `Spec/Executer`: programs and callbacks (arbitrary, possibly endless) inside nested `wait` and `call`
  loops. Every run projects to a history of C01, so its theorems apply; the invariant adds that the command of every unfinished `call` on the stack was accepted.
* **C72**: the executers `create_platform_command_executer` makes (`Contexts.lean`), followed into the block the driver reads (C18), and `UnixFile.read` of C24.
* **C73**: `Executer.call` itself, its waits scripted (`Spec/Calls`): before each read the device executes some commands, then a response is read, the read
  times out, or an exception arrives. The invariant of C67 carries over call by call; the callback left behind by a call given up is renamed to the
  number of its command, and renaming callbacks is shown not to matter to the executer.
* **C74**: the classes `except AsiException` catches are a table (`Spec/Errors`). For an arbitrary driver every way `call` can raise on an idle executer is
  classified (C15, C19, C20, C21 say when it returns), and composed with the ideal devices of C52–C55 and the decoder of C57. `uscsiDiagnose` is `uscsiDevice`
  with the ioctl failing when the status is not zero and the block has the flag `USCSI_DIAGNOSE`.
* **C75**: `Verif.Options` models the objects between constructor and `execute`: class, attributes (latest assignment first), buffer. A new object executed as it
  is sends the request of `Verif.Cdb` (`C75_new_*`, all inputs, exceptions included), so the two models agree. The property theorems quantify over all
  lists of assignments; the expected block is `Spec/Options` applied to the values `last` assigned. `cmd.control = Control(naca=, vendor_specific=)` is two
  assignments. Changing `cmd.control.naca` in place is C84. `Buffer` classes are tables of places (`Cls.places`) with the source of each value: `set_before_pack=`, or the attribute.
* **C76**: `Parse/PackPages` models `pack` of the designator and page classes over the same field tables as `unpack`. One generic theorem over all classes: the places
  of a class are disjoint (checked per class), so what `packAt` stores is read back (C48), joined fields by induction over their parts for both orders.
  `Spec/PackPages` says which types, lengths and NAA values the standard gives each class; `C76_standard` compares the bytes with `Spec/Inquiry`.
* **C77**: `Spec/Waits` states what Windows documents for `WaitForMultipleObjects` (at most 64 handles; index, `WAIT_TIMEOUT`, `WAIT_FAILED` as `ctypes` shows them).
  `ReactorWaits.waitForEvents` is the code as a function of the number returned. Its runs are shown to be runs of `Reactor` (so C13 and C14 carry over); the invariant
  `Kept` says that every suspended coroutine holds a token of its own run, and `Apart` (no two commands wait for the same event) makes the dictionary of events faithful.
  `Apart` is proved, not assumed, for the executers of `win32.py` in `C77_windows_false`.
* **C78**: the invariant of C60 (`AsyncInv.Inv`) has every request in flight in `pending_packets` and its token in a coroutine. `Release.close` throws an exception into every
  generator of an abandoned coroutine; only `send`'s bare `except` has an effect, it deletes the pending entry. `Rel` is the invariant while coroutines are given up in any order
  with the device at work: what is pending belongs to a coroutine not given up yet, or not to a request in flight.
* **C79**: `Spec/Pipeline` is the ideal: a list of outstanding commands, youngest first, no packet numbers and no memory. `Rel` relates it to the executer: the pending entries
  are exactly the outstanding commands under their numbers modulo the queue size, their request blocks are in memory as the device left them, and they are the top of
  `incoming_packets` in the same order (below them may lie requests that were forgotten). One simulation step per operation (`send_rel`, `call_rel`, `wait_rel`).
* **C81**: the relation `Cuts` beside C62's `Tells`: what each caller is told when the page or list is longer than the allocation length, for any position of the cut
  (`CutAt`). Since the response then fills the buffer, one relation serves all platforms. `C81_covers` shows that the two relations leave no length and no allocation length out
  (for the pages and lists it names). The parsers' behaviour on prefixes is in `Parse/CutLemmas` and, for the enclosure pages, `Parse/CutSesLemmas`.
* **C82**: `Spec/Durable` is the disk of C59 with two arrays (medium and what is seen), a schedule of destaging and power losses between the commands, and the options that
  bear on it (FUA, and those it refuses). `Base` separates what a command block says about options from what it asks of the disk, so the steps of C59 are reused; `Safe` (medium and
  cache both hold the bytes) is kept by every event and every command that spares the blocks.
* **C83**: `Spec/Latest` is `Spec/Pipeline` with only the answer to the last command to be had. `Books` (the table of pending packets with numbers that go round) is apart from the
  platform; `Rel` adds what `self.buffer` is good for: the answer of the command accepted last while its request object is pending, an `AttributeError` afterwards. No assumption
  about the memory of different commands is needed.
* **C84**: the model has a heap of control objects, the specification (`Spec/Own`) follows one object and knows no references. `Sep` (no two objects refer to the same control object,
  except for the two defaults) is kept by every statement of every program; what is left to show is that the defaults are not changed in place, which `AllOwn` (copying library) or
  `Careful` (the program) gives. Packing one of the four classes with `set_before_pack` assigns the default to it, so an earlier assignment no longer counts (`Careful`). `leaky` is the law of a sharing library.
* **C85**: users are numbered; each has an executer, a file descriptor (the sg driver keeps the requests of each apart, `Sg_fd` in `drivers/scsi/sg.c`) and memory of their own,
  the device is one. `Spec/Several` says what they observe together must be explained by one order of execution (`Linear`); the ideal users are one `Spec/Queue` each on a common device
  and satisfy it (`SeveralLemmas`), and the executers agree with those step by step (`Agree`, from the invariant of C67). `Props/Hosts` does the same for hosts on
  different platforms whose calls do not overlap, from C52-C55. Not modelled: commands of other initiators that the device itself reorders within one command, reservations
  conflicting (the device is arbitrary, so it may answer RESERVATION CONFLICT). Threads that share one executer are C86.
* **C86**: `Threads` splits `call`, `send`, `_next_packet_index` and `_process_pending_response` at every access to shared attributes, so the interpreter can switch threads between the
  reading and the storing of `packet_index`, between `_get_os_data` and `pop`, and so on (a dictionary or list operation is one step, as in CPython). `Inv` says where each command is
  (`Place`) and is kept by every step as long as packet numbers in use are distinct; `ThreadsLock` shows that the locks give this (`mod_window`: consecutive numbers modulo the queue
  size do not repeat within a window). A write may fail, in two steps: `os.write` raises, then
  the entry under the packet number is deleted, whosever it is. Simplifications: a response carries the outcome of its status and sense bytes (C15, C16), the driver fills the buffer
  when the response is read, responses become readable in any order, a time limit may pass at any poll that finds nothing. Only `call` is used, and only on the sg executer.
* **C87**: `Heap` adds the program's own objects to the model of C67 and lets every allocation be anything that does not overlap memory in use (`Fresh`): the buffers of the entries of
  `pending_packets` and the program's objects. The invariant relates every request the driver has to a pending entry whose buffers hold what C67's invariant says. An interrupted
  send is the write followed by an exception. Not modelled: the memory of Python objects other than these buffers, references that tracebacks keep for a while.
* **C100**: `Company` has one memory and, for each executer, what `Proc` of C87 has besides memory and objects; a step is `Proc.step` on the executer it is at. For the frame argument,
  each piece of memory of another executer is added to the objects of C87's invariant (`inv_more`), which are not written to.
* **C88**: `SesGeneration` splits a status or descriptor page of an enclosure (`Ses.lean`'s layout) into header and elements and decodes it with any configuration. Elements are right
  if the generation codes agree, given that an enclosure changes the code whenever its configuration changes (the hypothesis that both pages are of one configuration then follows from
  the equality of the codes).
* **C89**: `Spec/Messages` reads a text without knowing the code: it cuts it at the separator, takes the part behind the label, and reads a name and a hexadecimal (or decimal) number.
  The theorems say that this gives back what the response block has. Names are specified by number, apart from the tables of the code, of which a dictionary's order of iteration
  does not matter since no number has two names (`names`). `%02x`, `{}` and `%s` on small numbers are modelled; the numbers themselves are unbounded.
* **C90**: `Spec/Names` has the standards' names as functions of the number. The theorems start from the bytes the device sends (through the decoders of C43 to C46), so a table that
  is right but looked up with a field read from the wrong bits would fail. Programs of lookups are lists of any length.
* **C91**: `HoldsStruct` quantifies over all placements a C compiler may choose (`Natural`, as in C22), so the offsets are not those of the model. The contents follow from a
  theorem about `struct.pack` for every format of pointers and longs that follows a declaration (`packInto_natural`).
* **C92**: the operating system is any function that finds a handle not in use. Files are objects as in Python; nothing is closed by garbage collection (the classes have no
  `__del__`, handles are plain numbers). Only the number and identity of handles are modelled here, not what requests do.
* **C93**: open files are numbered in the order of opening and never again, so that acting on the wrong one is visible; the numbers programs see come from any function of those
  in use that gives a free one. Both classes are proved about with one invariant, which needs of the class only that a closed object does nothing (Windows) or is left alone.
* **C94**: the driver of C52 behind `UnixFile`; the counterexample is a theorem about all devices and sequences of commands.
* **C95**: a cluster is a family of computers, each with its platform, its executer and its memory; the disk is passed from the computer that executes a command to the next one. C59
  and C66, with the uniqueness of runs, give one step; the lock is proved over the sequence of operations with the invariant that the block names the computer that believes to hold it.
* **C96**: two runs of the cluster are compared, with and without the commands of the fenced computer. The relation between the states (`SameBut`) is that they differ in nothing but the unit
  attention waiting for the fenced computer. `Fence.serve` gives all hosts the same rules (in C65 and C69 only host 0 uses the library); C51 and C66 bring its answers to the callers.
* **C89**, sense data: `senseTold` takes what stands in the last brackets of the text and reads pairs of hexadecimal digits. `repr(sense_obj)` is any text, brackets included.
* **C97**: `Spec/Bounds` gives the loops as relations without any guard, so that a loop that does not end has no result; `endless` shows that an element of size 0 makes one. `entries` counts
  what is in the lists of a decoded object; texts count as one entry each.
* **C98**: a program is a state machine (`Spec/Client`), `Runs` is inductive, so a program that does not end has no run. The direction from the library to the device uses that runs are
  unique (`runAll_unique`). The loop for the keys is compared with the same loop over the operations of the unit (`in_step`), for which the room asked for grows with every round while the
  unit has room for a fixed number of registrations.
* **C99**: the cluster of C95 with programs (`Spec/Updates`): at a turn a computer executes the command its program is at and the result moves the program. Induction over the schedule; a computer
  whose copy of the block is out of date has one miss to its credit (`slack`). The concrete runs are evaluated on the array (`playAll`, `turns_played`).
* **C101**: the executers share one memory: after a command at one, the others continue with the memory it leaves (`ThroughOne`, `HasMem`). That an idle executer stays idle whatever the memory
  holds makes the simulation go through (`same_several`). The copy is proved on arrays of bytes by induction over the chunks (`copy_rest`, `copy_stops`).
* **C102**: `Once` (`Spec/Patient`) says that an operation is carried out the first time no unit attention is waiting; `patient` turns a program into one that repeats. The number of unit
  attentions is counted in the world of the specification (`Performed`), so that the number of commands comes out exactly.
* **C103**: the disk is that of C82, the program one of C98 and C102. `cut` stops a program after a number of commands; `Stands` is about the medium and about what is seen, so a
  loss of power is nothing special. The disk of `Spec/Durable` carries out a WRITE completely or not at all; a torn write would hit the place that does not count, except for the
  one block that says which place counts, and blocks are written whole.
* **C104**: `Spec/Torn` adds to the disk of C82 the loss of power during a command. A block is written whole or not at all (SBC-3 does not promise more for one command than for its
  blocks). The command ends with 6/29/00; a host that sees a transport error instead is not modelled here. `Latest` says what may be found in terms of the list of updates alone.
* **C65 with names**: `Cdb/Constants` has the names of `cdb/persist/output.py:10-35` and `cdb/persist/input.py:10-18` that callers write instead of numbers.
* **C105**: `Spec/Aborted` adds to the disk of C59 that commands end with ABORTED COMMAND, any additional sense code, having written any of their blocks. Only finitely many are
  aborted; nothing is said of a disk that aborts everything.
* **C106**: in `Spec/Paths` one path is active at a time (SPC-4 calls the others standby). A path that breaks, so that the system reports a transport error and nobody knows whether
  the command was carried out, is not modelled; C105 shows what can and cannot be repeated then.
* **C107** is about the sg executer of Linux: the ioctl executer does not see what the driver reports (C17); the other systems report such failures by an error of the ioctl or of `DeviceIoControl`, after which the theorems about refused requests apply. In `Spec/Link`
  the adapter reports one response for each request; that a failed command is still carried out when it has been reported, and given again, is not modelled.
* **C108**: the drivers of `Props/Refused` fail a call as the systems do: by the exception of `os.write` or `fcntl.ioctl`, by a false return value of `DeviceIoControl`; on AIX with `status_validity` zero. A failed call may have stored data in the caller's buffer; of
  the requests' other memory only the AIX block is changed. The exceptions carry no error number in the model (`PyErr.ioError`, `PyErr.asiOs`).
* **C109**: the library has no code for paths; `choosing` is a program that uses it, in the manner its comments give in Python. The target of `Spec/Ports` reports on every path whatever its state and refuses everything else where the
  group is not active (SPC-4 allows more, such as transitioning with commands held back). A port that is in several groups has the state of the first, in the specification as in the program.
* **C110**: `recorder` is a program that uses the library. What the other computers do is any function of the contents that keeps the count of this computer in the block. A COMPARE AND WRITE of one block that is lost was carried
  out or was not; a block is never half written. False on AIX with libc, as C108: `C110_aix_false`.
* **C111**: C66 for programs, with calls of `ioctl` that fail. `OnBlind` is the array of bytes for somebody who is never told of a failure; what the executer of `linux_dm` does is exactly that, because it reads its own copy of
  the header. `C111_search_false` shows a program that ends on every other platform and not on this one.
* **C112**: C67 with the reports of C107 and with writes that fail. A send that fails uses up its packet number, so numbers wrap onto commands outstanding even if the device answers in order
  (`C112_false`, not possible in C67), and `send` deletes the pending entry of its number even if that is by now another command's (`C112_lost_false`: the other callback is never called).
* **C113**: C85 with the ways of C112. A user who waits for each command is safe whatever fails (`C113_one_each`); one with a command outstanding and one not taken is not, even if the device
  answers in order (`C113_false`).
* **C114**: `Parse/PackResponses` models `pack` of the other response classes over the field tables used for reading; the generic theorem of C76 gives the fields, `Apart` (no two fields
  share a bit) is checked over the whole table of element types. It fails for one, and there no order of packing helps (`C114_enclosure_false`). `C114_transport`
  is about the defaults of a class; the other theorems set all numbers. `TransportId` is modelled twice, for reading and packing (`Parse`) and as an argument of a command (`Cdb`);
  `TransportId.argument` takes the one to the other, and `C34_move_to_reported` goes from the bytes of the device through both and back.
* **C115**: as C79, with a choice at every command whether `DeviceIoControl` fails, and with what effect. `fail_rel` is the one new step: `send` takes a number, overwrites what is
  pending under it, and deletes it again when the call fails. A failing call may change the memory of its own command only (`Within`).
* **C116**: as C115, for `LinuxIoctlCommandExecuter`. A failing call leaves its request in `self.buffer`, as `create` made it, while its packet is no longer pending: `stale_block` says what
  `_os_receive` makes of that. A failing call may change any memory: whatever was outstanding before it is not looked at any more, so no data of it can be spoilt.
* **C117**: `Kit` is the platform's part of an executer, `Sound` what is needed of it: C53/C54 for one call, `PacketZero`, and that a failing call is raised. `Agree` relates an executer with
  queue size 1 to the ideal of C116 with one place. On Solaris a failing call may change any memory; on AIX it writes data, `einval_arg` and an invalid status, as in C108.
* **C80**: `PacketZero` says what the two executers' `_os_receive` have in common (they look at request 0, say number 0, leave the system alone, and need the request only when
  the command succeeded); it is proved for `solaris.py` and `aix.py`. `call_zero` then reduces a call on an executer with leftovers to a call on a fresh one (C53, C54).
  `Leftovers` bounds what stays in `pending_packets`, so the queue never fills up.

## 4. Disagreements between code and properties

Each is proved as a negation (`..._false`) next to the part that holds (`..._partial`).

* **C01, C03, C04, C06** Packet numbers are `counter mod queue size` and are reused while still in use when commands
  complete out of order or sends fail.
* **C112** The same on the sg executer, already when a device answers in order: a write that fails uses up a packet number, and makes `send` delete the entry of whoever has that number.
* **C04** A refused send (queue full) raises `NameError`: `AsiRequestQueueFullError` is not imported in `__init__.py`.
* **C09, C10** A coroutine that handles an exception and then returns without yielding loses the handling.
* **C27** READ(6) with count 0 always expects 256 x 512 bytes, whatever the block size.
* **C29** No command class checks arguments of bit fields; refusal depends on the external library.
* **C30** WRITE SAME accepts any multiple of 512 bytes (also none), ignoring `block_size`.
* **C31** COMPARE AND WRITE accepts any whole number of blocks, not twice the count.
* **C32** UNMAP DATA LENGTH is 16n + 7; SBC-3 defines 16n + 6.
* **C34** APTPL is forced to zero in the basic parameter list.
* **C07** Linux: an unknown packet number with a successful status raises `AttributeError` rather than `AsiInternalError`.
* **C16** The reservation conflict status 18h is compared with the *host* status; the real conflict is a plain `AsiSCSIError`.
* **C17** `linux_dm` passes an immutable `bytes` to `ioctl`: the kernel's answer is never read back, every completed ioctl is success.
* **C18** CDBs longer than the block can hold: Linux keeps the length modulo 256, AIX truncates the CDB but not its length, Windows
  raises `IndexError`.
* **C20**, **C108** AIX with the libc binding: a refused `ioctl` (-1) is reported as success. A WRITE that never reached the disk ends as if it were done.
* **C21** Solaris: the reason decoded as `(x << 8) & 0xFF` is always 0.
* **C23** The handle leaks if building the executer raises (for example `linux_sg` on Windows: no `timeout` argument).
* **C24** The clock is looked at before polling again: data ready before the limit can still be timed out on.
* **C35** READ RESERVATION: a response of exactly 21 bytes raises (the guard of byte 21 is `>= 21`). READ FULL STATUS:
  `required_allocation_length` raises `NameError`.
* **C39** Extended header: descriptors are looked for from byte 7 (SPC-4: byte 8), so no extended response is ever decoded to its groups (without further bytes behind it, as on Windows, it always raises). If byte fields are signed, groups with 128 or more ports
  lose them.
* **C40** The last byte of SENSE KEY SPECIFIC (byte 17) is not part of the structure.
* **C41** The length of the descriptors is read at byte 6 (SPC-4: byte 7), so every conforming buffer decodes to no descriptors.
* **C42** `range(0x80, 0xFF)` and `range(0, 0xFF)` leave out qualifier FFh.
* **C43** A page cut at the allocation length (252 bytes) gives a shortened SCSI name without notice. DESIGNATOR LENGTH is ignored for the
  fixed formats: an NAA 6 designator of announced length 8 swallows the next descriptor. Reserved types (also UUID, 0Ah) are parsed as text.
* **C45** Vendor specific data of other than 20 bytes, fewer than eight version descriptors followed by vendor data, or no version
  descriptors do not round-trip. Responses of 8 to 35 bytes are accepted with shortened texts.
* **C47** The model number is words 27 to 45: the last two of its forty characters are lost. PAGE CODE 89h and COMMAND CODE are read as signed bytes
  if the library's default is signed. The signature's LBA is decoded as text.
* **C46** The requests of the enclosure element (`warn_requested`, `failure_requested`, `requested_power_off_duration`) are read from byte 2; SES has
  them in byte 3. All whole-byte numbers share one sign convention of the library, but SES has voltages and currents signed and the others
  unsigned. If the convention is signed, types with 128 or more elements lose them all.
* **C49** Designators and block limits join the parts of a number least significant first, `CoolingElementInfo.fan_speed` most significant
  first: whichever order the library uses, one of them is wrong.
* **C54** AIX with the `fcntl` binding (`aix.py:344-358`, where `libc.a(shr_64.o)` cannot be loaded): `fcntl.ioctl` takes its third argument as a C `int`, so a request block at an
  address of 2^31 or more is never sent: `OverflowError`, which is no `AsiException` (`C54_false`, `C74_aix_false`). The source says the first half of this in a comment.
* **C58** PAGE LENGTH of the byte list pages is ignored: everything after the header is returned as entries.
* **C60** More commands than the queue has room for: `NameError` (as C04).
* **C61** `WinAsyncIOToken.get_result` drops what `GetOverlappedResult` returns, so a failed overlapped request is a success with a buffer of zeros.
  `Win32AsyncFile.ioctl` treats a request that completes at once as failed.
* **C62** The residual count is never looked at: on Linux, Solaris and AIX the whole buffer, zeros included, is taken for the response. A provisioning page
  without group shows a vendor specific designator, READ RESERVATION without a reservation shows key 0 and type 0, the supported diagnostic
  pages always are 251 entries.
* **C63** The same for READ and LOG SENSE: the bytes a short transfer did not fill are handed on as zeros, without notice.
* **C64** `CommandExecuterAdapter.is_queue_full` with `sync_call` always raises `AttributeError`: the bool is driven like a generator.
* **C66** Behind `linux_dm` a failed WRITE, WRITE SAME or COMPARE AND WRITE is reported as done and a failed READ returns zeros (`C66_race`: two hosts
  are both told that they took a lock).
* **C67** C01's reuse of packet numbers, seen at the device: with commands completing out of order the data of one READ is handed to the callback of
  another, which the device has not executed yet.
* **C68** Between reading a response and processing it (`gevent_friendly` around `io.read`) another greenlet runs. If two greenlets read each other's response,
  the one that processes first finds no result of its own and polls for a further response: without patching everything stands still until its timeout
  (60 s), with patching its own result is delivered meanwhile and it times out all the same.
* **C71** An exception of the callback of another command (or the `TypeError` of a command sent with the default `callback=None`) leaves through whichever
  `call` or `wait` is reading responses. The answer to the command of that `call` then reaches nobody.
* **C72** The default limit is ten seconds on Windows, thirty elsewhere; `timeout=` is milliseconds on Linux, seconds on Solaris and AIX and a `TypeError` on
  Windows. On Solaris limits are cut to 16 bits. `UnixFile.read` gives up after sixty seconds whatever limit the command has.
* **C73** A packet number comes round after (queue size) calls even if the command that had it is still outstanding. A READ that gets the number of an
  earlier READ given up is handed the late data of that one as its own, with GOOD status.
* **C74** On Linux and Solaris errors of the operating system leave as `IOError`, not as `AsiOSError`. On Solaris the executer sets `USCSI_DIAGNOSE` ("fail if any
  error occurs", solaris.py:75, 100); a driver that does so fails the ioctl with `EIO` for every status other than GOOD, `_os_send` raises before the block is read back,
  and status and sense data are lost. A full queue is a `NameError` (cf. C04).
* **C75** `Read6Command` and `Write6Command` split the address in the constructor: a later assignment to `logical_block_address` is not sent. The writes take
  `transfer_length` from the buffer in the constructor: a buffer assigned later is sent with the old length. READ(12) and READ(16) call RDPROTECT
  `reserved`, so `cmd.rdprotect = 1` works for READ(10) only and is otherwise ignored; READ(12) has no group number, WRITE SAME(10) no UNMAP,
  LOG SENSE, RECEIVE DIAGNOSTIC RESULTS and both PERSISTENT RESERVE commands overwrite the control byte (`set_before_pack`), all others send what is assigned.
  `Reserve10Command.operation_code` is declared with `default=`, in all other classes it is constant: assigning 0x57 makes the object a RELEASE(10).
* **C114** An `EnclosureElementInfo` with a warning indicated and none requested (or the other way round) cannot be packed so that it reads back: both attributes are bit 0 of byte 1.
* **C76** `T10VendorIDDesignator` sets `designator_length` to the length of the vendor specific identifier without the eight bytes of the vendor: whatever the library does
  with the identifier, which then does not fit its place, decoding gives another identifier. `Reserved_Designator` takes the length of `self_ref.designator` while
  the field is called `desginator`: packing raises `AttributeError`. A logical block provisioning page is packed in seven bytes, the standard's has eight.
* **C77** `WaitForMultipleObjects` is given all pending events at once, and Windows takes at most 64: with more commands than that, `wait_for` raises
  `AsiWin32OSError` at its first wait, after all requests have been sent; the devices carry them out and nobody gets the answers.
* **C78** When `wait_for` raises (an error of one command suffices) the other coroutines are dropped. Python closes their generators, the bare `except:` of `send` takes the
  `GeneratorExit` for a failed submission and deletes the pending entry, so nothing refers to the request block, the data buffer and the overlapped structure of the
  requests still in flight; the operating system writes to that memory when the device has served them. Nothing cancels the requests (`CancelIo` is not used).
* **C115** A `send` that fails deletes `pending_packets[packet_index]` (__init__.py:107-109); if an older command was outstanding under this number it has already been overwritten, and its
  callback is never called.
* **C116** With a queue of 2 or more, a `send` that fails on `LinuxIoctlCommandExecuter` leaves its request in `self.buffer` (linux.py:285-293); the `wait` after it looks for its
  packet number, which is not pending, and raises `AttributeError`; callbacks of earlier commands are never called.
* **C117** As C108: with libc's `ioctl` on AIX (aix.py:344-361, 372-384) a failing call goes unnoticed.
* **C79** `Win32CommandExecuter._os_receive` takes the youngest finished request (`incoming_packets.pop()`), and packet numbers go round. With commands sent ahead and not waited
  for, a command that is outstanding when as many more have been accepted as the queue holds loses its pending entry to the command that gets its number: its callback is
  never called, `wait()` returns, nothing is raised, and its request stays in `incoming_packets` for good. One `send` followed by fifteen `call`s does it with the default size.
* **C80** On Solaris and AIX `_handle_raw_response` takes every response for that of packet 0. With any `max_queue_size` but 1 (a parameter of both constructors) only every
  n-th command has its result; the others are carried out and then raise `AttributeError` (if they succeeded) or `AsiInternalError`. With commands sent ahead the callback
  of the first is told how the second went, the other callback is not called, and the error of the first is told to nobody if the second succeeded.
* **C81** Nothing compares a length field with the number of bytes that arrived, except READ KEYS and REPORT LUNS: serial numbers, SCSI names, TransportIDs and lists cut at a
  descriptor are returned as if they were whole (`C81_linux_false`: two targets that differ are shown alike). `rtpg.py:21` declares `TruncationError`; nothing raises it.
* **C82** Every write defaults to FUA = 0 and the library has no SYNCHRONIZE CACHE, so an acknowledged write can be lost with the power (`C82_default_false`). Assigning `fua` to
  WRITE(6), WRITE SAME or UNMAP objects, which have no such field, raises nothing and changes nothing (`C82_ignored`, `C82_ignored_false`).
* **C83** `LinuxIoctlCommandExecuter` keeps only the block sent last in `self.buffer`. With a `max_queue_size` above 1 (a parameter of its constructor), a command that was sent and
  then followed by another one before `wait` is never answered (`C83_false`); `wait` raises `AttributeError` (`C83_two_false`).
* **C84** All commands made of `Struct`s declare the one `DEFAULT_CONTROL` object as default, all made of `Buffer`s but RECEIVE COPY RESULTS the one `DEFAULT_CONTROL_BUFFER`. If `infi.instruct` hands it out without copying, `cmd.control.naca = 1` changes every
  command in the process of the same kind that had no control byte assigned, of every class, made before or later (`C84_shared`, `C84_shared_false`).
* **C85** With more than one command in flight per user and answers out of order, one user's command is told the answer of another (`C85_false`, the reuse of packet numbers of C67);
  no order of execution explains what they are told.
* **C86** An executer cannot be shared by threads without a lock around `call`: two threads may take the same packet number, and one call then returns its buffer as it was allocated, its
  command still at the device (`C86_false`, any queue size); or the write of one fails, it deletes the other's entry, and the other raises `AttributeError` although the device did what it
  asked (`C86_write_false`). A lock in `_next_packet_index` alone does not help: a thread may stay in `os.read` for ever (`C86_hangs_false`; the file
  is opened without `O_NONBLOCK`, `__init__.py:206`, and another thread took the response `select` announced) or raise the time limit's `IOError` (`C86_timeout_false`), with its
  result delivered in both cases.
* **C87** An exception that comes after the write of a command was accepted (a signal handler's, or a timeout or kill of the greenlet while `gevent_friendly` sleeps,
  `__init__.py:227-236`) makes `send` delete the only reference to the buffers (`107-109`), while the driver still has the request with `SG_FLAG_DIRECT_IO`. The device then writes
  into whatever object gets that memory (`C87_interrupted_false`), or is sent the bytes of such an object (`C87_interrupted_write_false`). The reuse of packet numbers (C67) does the
  same without any exception (`C87_reuse_false`).
* **C100** For the same two reasons the user of one device may be told what another device sends (`C100_interrupted_false`, `C100_reuse_false`).
* **C88** The library ignores generation codes: a status page decoded with an older configuration is reported with the old types, without complaint (`C88_stale`, `C88_false`).
* **C89** `linux.py:252-255`: when the driver alone fails, the text has the SCSI status behind "driver response status" and the driver status behind "host status"; the host status is
  lost (`C89_linux_driver_false`, `C89_linux_driver_lost_false`). `linux.py:258-263`: when the host fails, the SCSI status (0) stands behind "SCSI host status is not zero"
  (`C89_linux_host_false`). `aix.py:240`: statuses are masked with 1Eh, so TASK SET FULL is told as BUSY and TASK ABORTED as GOOD (`C89_aix_false`). `solaris.py:213` shifts in the wrong
  direction, so the reason is always told as 0 (`C89_solaris_false`).
* **C90** `SCSI_VERSION_NAME`, `SCSI_VPD_NAME`, `SCSI_CODE_SETS`, `ELEMENT_TYPE_CODES` and `ELEMENT_STATUS_CODE` have no entries for values that devices may send (`C90_version_false`,
  `C90_pages_false`, `C90_code_set_false`, `C90_elements_false`). `CustomDefaultDict.__missing__` stores the name it makes up, so `SCSI_DESIGNATOR_TYPES.get` answers differently
  before and after (`C90_lookups_false`).
* **C92** `Win32AsyncFile.ioctl` creates an event for every request and nothing closes it; `CreateEventW` returning NULL is not noticed (`C92_false`, `C92_exhausted`).
* **C93** `UnixFile.close` (`unix.py:29-30`) keeps the descriptor. A closed object that is used or closed again (the context managers of `executers.py` always close on leaving, also
  when the block closed the file) acts on the file that was given the number since (`C93_false`). `Win32File.close` does not have the problem (`C93_windows`).
* **C94** `UnixFile.read` polls with `select.select`, which raises `ValueError` for descriptors from 1024 on, after the command was written (`C94_false`).
* **C95** The defect of C66 (`linux.py:285-293`) breaks mutual exclusion between computers: whoever uses `linux_dm` to take a lock gets it, also while another computer, on any
  platform, holds it (`C95_false`).
* **C96** The defect of C66 (`linux.py:285-293`) breaks fencing: with `linux_dm` a PREEMPT that the disk refused looks like one that was done, so that two computers write; and a
  fenced computer with `linux_dm` believes that its writes are on the disk (`C96_false`).

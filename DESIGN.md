# Formal model of abates/insteon in Lean 4

This directory holds a Lean 4 model of the Go module `github.com/abates/insteon`
(source pinned in `/repo`), a list of user-level properties
(`properties.jsonl`), and machine-checked proofs about the model.

## Layout

| Path | Content |
| --- | --- |
| `properties.jsonl` | the properties, in terms of the API |
| `lean/Verif/Model/*.lean` | the model, one definition per Go function, each citing file and lines |
| `lean/Verif/Spec/*.lean` | small independent specifications (what a modem or device does, what a "window" is, ...) |
| `lean/Verif/Lemmas/*.lean` | helper lemmas |
| `lean/Verif/Props/*.lean` | the property theorems, each with a non-vacuity `example` next to it |
| `lean/Verif/Tests/*.lean` | the project's own unit tests, carried over to the model as `example`s; no claim rests on them |
| `MANIFEST.json` | property -> theorem names |
| `seeded/LOG.jsonl` | mutation log: edits of the model that must break theorems |

## Modelling conventions

* `byte` is `BitVec 8`, `Address` (`uint32`) is `BitVec 32`, Go's `int` where it is
  used bitwise (`commands.Command`) is `BitVec 64`; other integers are `Int`/`Nat`
  when overflow is impossible, and this is said at the definition.
* Byte slices are `List (BitVec 8)`. Slice aliasing is modelled only where the
  code's behaviour depends on it (for instance the payload that
  `writeWithChecksum` changes in place); each such place is noted. What the
  caller's own slices hold afterwards is in `Caller`.
* A Go function that may fail returns `Except Err α`, or an explicit pair of value and
  `Option Err` when callers can observe both. A Go panic (index out of range,
  nil dereference) is an explicit outcome (`Out.panic`), never hidden behind a
  default value.
* Error values are an inductive type with one constructor per sentinel plus a
  `wrapped` constructor for `fmt.Errorf("...%w", err)`, because the code mixes
  `==` and `errors.Is`.
* Interfaces (`MessageWriter`, `packetWriter`, `Linkable`) are structures of
  functions over an arbitrary state type: theorems quantify over *every*
  implementation, so they cover every behaviour of the outside world. Where a
  property needs a cooperating modem or device, that device is a small
  specification in `Spec/`.
* Loops without a static bound take a fuel argument and return `none` when it
  runs out; theorems say "for every fuel for which it returns" and, separately,
  that enough fuel exists. Non-termination is a theorem "for every fuel: `none`".
* Goroutine plus channels (PLM read loop) is a labelled transition system; theorems are
  inductive invariants over all traces.
* Logging and sleeping have no effect in the model of calls (C162 is why logging has none, C166 says where it has; C145 to C147 and C191 are about sleeping). Time is a parameter.

Where the code does not satisfy the expected property, the negation is proved
with a concrete reachable witness (suffix `_refuted`) and the strongest true
part is proved with the suffix `_partial`.

## Plan per property

| Property | Plan |
| --- | --- |
| C01 Address text round trip | Model `String`, a faithful `fmt.Sscanf` subset (`%2x`, literal dot) and `UnmarshalText`. Prove by computing the scanner on the formatted text, byte by byte (finite lemma on one byte lifted to all addresses). |
| C02 Address parsing is total, safe and bounded | Same model; prove by case analysis of the scanner that failure leaves the receiver and success gives < 2^24. |
| C03 Address parsing rejects malformed text | Expected false (trailing text and single digits are accepted). Refute with witnesses; partial: exact characterisation of accepted text. |
| C04 Address wire bytes round trip | `Bytes`/`Put` as big-endian byte functions on `BitVec 32`; prove by bit extensionality, all buffer lengths. |
| C05 SubCommand replaces only the second command byte | `Command` as `BitVec 64`; bit extensionality. |
| C06 Commands decoded from the wire | `From` as in the code; the flag byte is a finite domain, command bytes by bit extensionality. |
| C07 Command matching distinguishes commands | Expected false (`Matches` ignores the class). Refute; partial: it is exactly equality of the first command byte. |
| C08 Message flag construction and accessors agree | Flag arithmetic on `BitVec 8`, whole-domain kernel evaluation per component, or bit extensionality. |
| C09 Message classification is a partition | Whole-domain kernel evaluation over the 256 flag bytes. |
| C10 Hop counters are independent fields | Bit extensionality / whole-domain evaluation. |
| C11 Message wire round trip | `MarshalBinary`/`UnmarshalBinary` on lists; prove by list reasoning for any payload length. |
| C12 Wire bytes round trip through a message | Same model, opposite direction, with the receiver as an argument. |
| C13 Duplicate detection ignores only the hops left | Expected false for ack/nak bits. Refute; partial: equivalence relation, hop-invariance and exact characterisation. |
| C14 Message equality is field equality | Structural. |
| C15 Link flag setters are independent and complementary | Whole-domain evaluation plus an induction over setter sequences. |
| C16 Link flag text round trip | Text as byte list, split into UTF-8 characters; case analysis. |
| C17 Link record wire round trip | List reasoning over C04. |
| C18 Link record identity | Expected false for availability. Refute; partial: exact characterisation. |
| C19 Link record text round trip | Model `Sprintf` padding, `bytes.Fields`, the three field parsers and `Sscanf("%x")`; prove by composing the field round trips. |
| C20 Link list text round trip | Model the template output, `strings.Split`, `TrimSpace`; induction over the list of links. |
| C21 Malformed link text is rejected | Expected false (`0x1c` is read as 0). Refute; partial: exactly which lines and files are read and as what, by induction over the lines, with white space as in Unicode. |
| C22 Group text parsing accepts exactly 0 to 255 | Model `strconv.Atoi`; induction over digits. |
| C23 Modem echo decoding | Table lookup over all commands; list reasoning. |
| C24 Serial stream framing | `bufio.Reader` as remaining bytes plus last byte; `sync`/`read` with fuel; induction over packets and noise. |
| C25 Packet reader never overruns its buffer | Explicit `panic` outcome for out-of-range slices; prove unreachable for all streams. |
| C26 Packet reader stops at end of stream | Expected false (a stream ending in 0x02 spins). Refute for every fuel; partial: terminates for all other streams. |
| C27 Snooped host traffic framing | Expected false (only 0x61..0x64 are right). Refute; partial for those commands. |
| C28 Received packets are routed in order without silent reordering | Transition system: arrivals, reads, close; inductive invariant over traces. |
| C29 A successful modem write means a faithful echo | `WritePacket` over an arbitrary modem; case analysis. |
| C30 Modem retries are bounded and transparent | Induction over retries, arbitrary outcome sequence. |
| C31 Modem timeouts are retried | Expected false (wrapped error compared with ==). Refute generally: never more than one attempt. |
| C32 Message acknowledgement comes from the addressed device | Fuel loop over an arbitrary message source; induction. |
| C33 Reading after the port is closed is an error | Expected false (nil packet dereference). Refute; partial: buffered packets are still delivered. |
| C34 Modem configuration bits | Whole-domain evaluation. |
| C35 Reading the modem link database is complete | Modem specification with get-first/get-next; induction over the database. |
| C36 Rewriting the modem link database | Modem specification with manage-record semantics; partial where the cache is not the modem's content. |
| C37 Recovery from a corrupted modem write deletes the corrupted record | Expected false (off by one). Refute; partial: which record is deleted. |
| C38 Device iteration visits each linked address once | Fold with a seen-set; induction. |
| C39 Outgoing device messages are addressed and framed | `BasicDevice.Write` over an arbitrary `MessageWriter`. |
| C40 All outgoing device messages use the maximum hop count | Expected false for extended messages. Refute; partial: standard messages. |
| C41 Extended messages to I2CS devices carry a valid checksum | Arithmetic modulo 256 over lists; refute for payloads whose last byte is non-zero; partial for all others and for every message the package builds. |
| C42 Waiting for a response returns the first match | Fuel loop, arbitrary reader; induction. |
| C43 Engine version query decision table | Case analysis over all write outcomes. |
| C44 Identification comes from the queried device | Expected false (source not checked). Refute; partial. |
| C45 Opening a device | Case analysis over arbitrary `MessageWriter`. |
| C46 The message cache remembers exactly the last N messages | Ring buffer refined to the list of the last N pushes; invariant by induction over pushes. |
| C47 Duplicate filter delivers each message once per window | Composition with C46; induction over histories. |
| C48 Distinct user actions are never swallowed by the duplicate filter | Expected false. Refute with a concrete history. |
| C49 TTL filter sets both hop counters and nothing else | Flag lemma plus arbitrary writer. |
| C50 Retry filter bounds and stops | Induction over tries. |
| C51 Retry filter retries modem timeouts | Expected false (different error values). Refute. |
| C52 Matchers form a Boolean algebra | Induction over matcher lists. |
| C53 Link database request wire round trip | List reasoning over C17. |
| C54 Reading a device link database tolerates retransmission | `refresh` over an arbitrary `MessageWriter` stream; induction over the repeated record list. |
| C55 Writing one link touches one memory slot | Address arithmetic; device memory specification. |
| C56 The local link cache agrees with the device | Cache/memory simulation relation preserved by each write. |
| C57 Rewriting a device link database | Expected false when the new list is shorter. Refute; partial: exact result. |
| C58 Interrupted link rewrite | Induction over the write loop with failure at any point. |
| C59 Updating links preserves unrelated records | Expected false (wrong index). Refute; partial. |
| C60 Adding links to a device | Expected false (wrong record written). Refute; partial. |
| C61 Thermostat mode commands | Finite case analysis. |
| C62 Thermostat temperatures are encoded without loss | Expected false from 128 degrees. Refute; partial. |
| C63 Thermostat flag decoding | Expected false for time format. Refute; partial. |
| C64 Dimmer ramp encoding | Bit arithmetic on Go int conversions. |
| C65 Switch and dimmer configuration round trip | List reasoning. |
| C66 Product data round trip | Expected false (7 versus 14 bytes). Refute; partial: with padding. |
| C67 The device database is a map | Map as association function; expected false for the all-zero info. Refute that corner; partial otherwise. |
| C68 A clean database equals its last saved copy | History induction with ghost 'last saved' content. |
| C69 Saving and loading the database | JSON at byte level, all of its syntax as encoding/json reads it (nesting limit, escapes, surrogates, invalid UTF-8); what is written is proved to be in a separate grammar of JSON (`Spec/Json.lean`), and the reader to accept exactly that grammar. |
| C70 Saving to a file survives a crash | File as content with truncate/write steps; expected false. Refute. |
| C71 Opening through the database | Case analysis over arbitrary `MessageWriter`. |
| C72 Filters given to the database are applied | Expected false. Refute; partial: memory database, unknown device. |
| C73 Database filtering by domain | List reasoning over map entries. |
| C74 Finding a link record | Induction over the list. |
| C75 Finding duplicate links | Induction; membership characterisation. |
| C76 Anonymizing links | Induction with the address map as invariant. |
| C77 Missing crosslinks are sound | Induction over the list. |
| C78 Missing crosslinks are complete | Expected false. Refute; partial: at most one record per address is examined. |
| C79 Removing links | Arbitrary `Linkable`; expected false for write errors. Refute; partial. |
| C80 Forcing a link always leaves linking mode | Case analysis over all call outcomes with a call trace. |
| C81 Linking is idempotent | Case analysis with call trace. |
| C82 Cross-linking covers every pair | Induction over the device list. |
| C83 Unlinking all groups reports failures | Expected false (earlier errors overwritten). Refute; partial. |
| C84 Link sort order | Lexicographic order of fixed-width hex equals numeric order; order laws. |
| C85 Propagation delay grows with hops and length | Expected false at 255 hops (8-bit wrap). Refute; partial below 255. |
| C86 Checksums of resent messages | Expected false (checksum of the first attempt is summed in). Refute; partial: what the second attempt carries. |
| C87 Link records come from the device asked | Expected false (sender not checked). Refute; partial: every record was received. |
| C88 Reading a link database again | Expected false (left-over end record). Refute; partial. |
| C89 Updating links twice | Expected false (index misses added links). Refute; partial. |
| C90 Light control commands | Arbitrary link layer; one lemma per command. |
| C91 Queries ask the documented questions | Specification function `asked` over an arbitrary link layer; induction over the questions. |
| C92 Configuration answers come from the queried device | Expected false (sender not checked). Refute; partial. |
| C93 Thermostat information decoding | List reasoning over all byte strings. |
| C94 Raising the temperature has one direction | Expected false. Refute for all zones and amounts. |
| C95 Setpoints apply to the zone given | Expected false for two methods. Refute; proved for the zone methods. |
| C96 A failed load changes nothing | Expected false. Refute for every malformed text; partial: failing reader. |
| C97 Starting without a database file | Expected false (error). Refute; proved: the database works. |
| C98 The file follows the database | Invariant over calls and file failures, with C69 at byte level. |
| C99 Nobody is left in linking mode | Network of devices with lost and unconfirmed calls. Expected false when the confirmation of the controller is lost. Refute; partial: exactly the fates of the calls after which the controller is left waiting. |
| C100 Adding links | Device with a list of records and failing writes; induction over records and links. |
| C101 Filling in missing crosslinks | Expected false (an append starts from the original list). Refute; partial: exactly which of the missing crosslinks are in the list. |
| C102 Repairing a stale half-link of the modem | Call trace of `Link` with the modem's `UpdateLinks`. |
| C103 A written message is answered by its device | A running PLM (`Live`): reader, both queues and the calls over a serial line given as bytes per wait; framing, queue, retry and await lemmas composed. |
| C104 The acknowledgement belongs to the message written | False: witness with an old acknowledgement in the queue; corollary of C103 when there is none. |
| C105 A late modem reply affects one call only | False for every continuation: induction over the later messages; prompt exchanges by induction with C103. |
| C106 Writing always returns and never sends anything else | Invariant on queued replies, induction on the remaining line and the queue. |
| C107 The modem's link database survives a busy serial line | Simulation between a modem that speaks bytes (with noise, messages and reports on the line) and the packet-level modem of C35/C36. |
| C108 Listening on a serial line reports every message once, in order | Transition system of two reader goroutines, a bounded channel and a reader; interleaving invariant over all schedules, joined with the framing theorems. |
| C109 Listening ends with an error when the line is gone | Refuted: characterization of the states in which a read completes. |
| C110 A command's text identifies the command | `Command.string` over the table of names; case analysis of the three forms, facts about the finite table by evaluation. |
| C111 A modem command's text identifies it, a packet's hexadecimal text identifies the packet | Decoder from text for all 256 commands; induction on payloads. |
| C112 The text of message flags shows all of them | Decoder from text for all 256 flag bytes. |
| C113 A message's text identifies the message | Splitting the text at fixed widths and at first and last separators. |
| C114 Watching messages does not change them | Simulation between the filter and what is below over all sequences of operations; texts have no line break. |
| C115 An acknowledgement is shown with its request | Invariant of the cache (last ten messages) joined with C46. |
| C116 Thermostat information is what the thermostat said | Expected false (data set not checked against the question). Refute; partial over a wire of messages with C93. |
| C117 A thermostat status report is complete or an error | Composition of C91 and C116 over a wire of messages. |
| C118 Flags are read off their own bits | All 256 values of each byte. |
| C119 A command argument means the command it spells | Expected false (signed parse). Refute; exact accepted texts by induction over the digits. |
| C120 Addresses on the command line | Induction over the arguments; round trip with C02's. |
| C121 Data bytes on the command line | Expected false (prefix scan). Refute; partial: what is accepted. |
| C122 Setting or clearing a modem flag | Modem with a configuration byte and arbitrary failures; all bytes. |
| C123 The link command links every device named | Expected false (returns in the loop). Refute; partial: the first. |
| C124 The unlink command unlinks every device named | Expected false (wrong list). Refute. Prove what the loop would do with a list that had been filled, by cases on the first device that is not passed over. |
| C125 Editing links changes what was edited | Compose reading, text round trip and rewriting of the modem's database. Expected false for hidden flags. |
| C126 A failed edit loses nothing | Expected false (deletes first). Refute with a full modem. |
| C127 An anonymized file | Compose the text parser with the anonymizing theorem. Expected false for comments. |
| C128 The monitor shows every message | Induction over the script on top of the snooping theorem. Expected false for garbled messages. |
| C129 A device's links over a busy serial line | The refresh loop over an abstract source that delivers messages; the running PLM is shown to be such a source for every line on which no more than ten messages pile up. Composition of C14/C53 and C112-type lemmas, bytes in, records out. |
| C130 A link database is returned complete or not at all | Transmission with losses (`Heard`): the loop returns exactly the records heard. Expected false: a lost record is silently missing. |
| C131 Rewriting a device's links over the serial line | A device with memory behind modem and line (`FarDevice.react`: requests in, replies, answers, noise and traffic out) run with the reader, queues, retries and `Write` of the running PLM; simulation by the device of C55-C58, then those theorems. |
| C132 A rewrite over a busy line succeeds | Corollary of C131 for lines on which each request gets through within the retries. |
| C133 A listener on the line passes bytes on unaltered | `Isnoop`: two directions (copying, pipe, packet reader), the channel and the monitor as one transition system with arbitrary chunk sizes; an invariant over all schedules. Needs: packets found in an initial part of a stream stay found (`packetsIn_append`). |
| C134 A listener on the line passes everything on and prints every message | The same system: a measure that every step decreases, and no deadlock while the monitor goes on. Expected false: a garbled message ends the monitor, the channel fills, the pipes are no longer read and the copying blocks; the end of the standard input ends the program. |
| C135 A dump of a link database identifies it | `dumpLinks` from the template; lines without line breaks split in one way, hexadecimal bytes are injective. |
| C136 A printed link database shows every link, in order | `printLinks` over any function with `sort.Sort`'s contract (a rearrangement without inversions if the comparison is a strict weak order, which C84's lemmas give for three-byte addresses); the rows go through the parser of C20. |
| C137 A device's text names the device | `deviceString`, `deviceDump` per kind of device. Expected false for thermostats: `String` prints a field that is never set. |
| C138 Thermostat values have names of their own | The generated tables with their offsets; finite domains by computation, integers by the injectivity of decimal text. |
| C139 The printed thermostat information shows every reading | `thermostatInfoLines`: split into lines, compare line by line. |
| C140 A device is linked only when the user says so, and then usable | `IcDev.openAsk` over the file database, an arbitrary network and the linking session of C80. Expected false in two places: the device linked is one without a category, and the second error is shadowed. |
| C141 Commands for a kind of device reach only that kind and send what they name | `IcDev.initClass` and the subcommands as functions of the device opened. Expected false for switches: the method values are taken from a nil device. |
| C142 Device commands send what they are given and show what is known | `IcDev.DeviceCmd`, `versionCmd`, `printDevInfo`, `dumpCmd` on top of the device model. Expected false for the extended send without data and with 14 bytes. |
| C143 Status commands show what the device answered and change nothing | The status commands as text of the answer. Expected false for the thermostat, which is told its unit, and the dimmer configuration, whose error is dropped. |
| C144 A walk visits every linked device once and only asks | `Iwalk.walk`: C38 for the addresses, induction over the visits for the database, an inductive relation for states reached by asking only. |
| C145 A modem command returns in bounded time and does not give up early | `Timed.io`: the channels with arrival times, `select` against the timer. `KeepsTime` abstracts it; induction over the attempts. |
| C146 Writing a message to a device returns in bounded time | Expected false: the timer starts anew with every message. Bound per message received by induction. |
| C147 The time options of a modem take effect | `PlmCfg.new` folds the options. Expected false for `WriteDelay`, which nothing reads (`delayWriter` in `plm/port.go` is never used). |
| C148 A call made while others are under way is a call on a busy line | `Shared`: calls as state machines, a run is any list of steps. Simulation: the call alone in the world `view i`, in which the other steps happen between its own. |
| C149 A packet from the modem goes to one caller only | Invariant of the runs of `Shared`: what was queued is what was handed out followed by what is waiting. |
| C150 Calls made at the same time get their own answers | Expected false: nothing ties an answer to the caller. Invariant for what success means. |
| C151 Calls made at the same time do not send more or block each other | Measures on the state of a call, decreasing with its writes and its steps. |
| C152 Commands to the modem are sent as documented | `ModemCall.exec` over `logged io`, a world that records what is written. Simulation with the world without the record, by induction over the attempts. |
| C153 A command to the modem succeeds exactly when the modem confirms it | C29 and C30 for each command, stated with the documented frame. |
| C154 What the library says about the modem is what the modem said | `Plm.info`, `Plm.config`, `Plm.address`. Expected false for the address, which has no error. |
| C155 The modem info command shows what the modem said | `plmInfoCmd`, by cases over the three questions. |
| C156 Descriptions of the modem and requests to it survive the wire | Round trips by computation on the fields. |
| C157 What holds for a call alone holds for it among others | `Prog`: a program is a tree of accesses to the port and the channels; `Team`: any number of programs on one PLM. Induction over the program; each call of the library is shown to be a program. |
| C158 Goroutines that read the modem's links at once all get the whole list | `Prog.links` in a `Team` with a modem that answers each command. Expected false: one position in the database for all readers. Provenance of the records by an invariant over programs. |
| C159 Resetting the modem leaves the timeout as it was | `ResetSt`: the field and the accesses to it. Expected false when resets overlap. |
| C160 A command to a device is carried out at most once | `House`: a modem and devices that carry commands out, with any fate for each frame; `Plm.write` and the control methods in it. Expected false for late replies. |
| C161 A history of commands is carried out in order | Induction on the history with the invariant that no reply and no answer is left over. |
| C162 Logging changes nothing and shows everything | `SerialPort.logged`; simulation over programs that use a port; lines are injective. |
| C163 The quiet option silences ic | `IcFlags`, `Loggers`. Expected false: the flag is bound to another variable. |
| C164 Reading with a timeout gives a message or a timeout error | `readWithTimeout` with arrival times. Expected false for closed channels. |
| C165 Lists and buffers passed to a device can be used again | The link database calls and sending once more with the caller's array or buffer as part of the result, proved to do otherwise what the first model does. Expected false: `UpdateLinks` shifts within the caller's array, `setChecksum` adds up the old checksum. |
| C166 Debug logs change nothing that is sent | Linking and unlinking with the texts of the devices as possible calls. Expected false for the modem, whose text asks for its address. |
| C167 An interrupted rewrite of the modem's links loses records only at one end | The specified modem behind a line on which every command meets a fate (`Spec/ModemFaults`). Induction over the records for all sequences of fates. |
| C168 A failed rewrite of the modem's links can be made good | Expected false: the program still wants to delete records that are gone. Refute for any number of attempts; partial: reading first helps. |
| C169 Reading the modem's links on an unreliable line is complete or fails | Expected false: a refusal looks like the end of the list. Refute; partial: prefixes, and completeness without refusals. |
| C170 A failed rewrite of a device's links can be repeated until it succeeds | Induction over the earlier attempts on the device of C55-C58: slots beyond the longest list stay; induction over the mishaps left. |
| C171 Editing the modem's links on an unreliable line loses no record the editor did not show | `editLinks` over the faulty modem of C167 and C169: prefixes shown, then rewriting the part shown. |
| C172 After editing a device's links as text the device holds the links of the text | Expected false for shorter texts and lost messages. Refute both; partial: a device that sends its database when asked (`Spec/Book`), edited links followed by what lies behind them. |
| C173 Delayed writes leave the network the time it needs | `delayWriter` over any packet writer and any clock that does not go back, with the saturating difference of Go's times. Expected false before the first read. |
| C174 Group numbers given as flags | `Group.set` (the scanner of `fmt` for `%d` into 8 bits) over all byte strings; exact acceptance. Expected false: trailing text is ignored. |
| C175 Printing links does not change them | `printLinksArg` for every function that sorts by `Links.Less`. Expected false: the list is sorted in place. |
| C176 Packets and requests shown in logs can be told apart | The text functions of packets and requests; injectivity by stripping the status, then the hexadecimal digits, then recognising the name. |
| C177 The modem is reset only when the user says so | `resetCmd` with the answer to the question as a parameter, over any modem, with a record of what is written. |
| C178 A new link is what it is called | The two constructors, by their bits, and the round trips of C17 and C19. |
| C179 A refusal is reported with the reason the device gave | The table of `errLookup` over all codes, and `Send` over any network. Expected false: nothing calls the table. |
| C180 Which files are databases | The reader of JSON equals a grammar; decoding by induction over members and fields, with the errors that are remembered while decoding goes on. |
| C181 A loaded database can be used | The map can be nil after loading `null`; histories of calls that may panic, induction. |
| C182 What one run learns the next one knows | Runs of programs as a relation on the file; induction over runs and over the calls of a run. |
| C183 A damaged database file is left alone | The same relation; no program starts, induction over runs. |
| C184 First use without preparation | The same relation, without a file: false of the code. |
| C185 Programs used at the same time | Two databases on one file, every interleaving of their calls, an invariant: false of the code, what holds is proved. |
| C186 Killing a program | Histories of runs of which each ends or is killed in a call, with every intermediate state of the file while it is written: false of the code (a torn file ends everything), what holds is proved by induction over the history. |
| C187 Failing ports | The reader again over streams of bytes and errors; simulation by the reader over bytes; false of the code just after a start-of-text byte (the error is overwritten), proved everywhere else. |
| C188 Temperature shown | float32 as rationals rounded to 24 binary digits; a bound on the error of each operation, and the nearest tenth is further from a tie than their sum. |
| C189 Opening over a busy line | The write and read theorems of the serial model composed for the two questions and the announcement. |
| C190 isnoop with failures | The isnoop model with failing reads and writes as further steps; its invariant is kept by them; the steps that did not fail are a run of the model without failures. |
| C191 Linking gives the devices time | `LinkTimed`: linking mode with its sleep over a world with a clock, every exchange noted with its times. Invariant: what was exchanged was unhurried and has settled. Expected false if the modem is the controller, which does not wait. |
| C192 Commands are shown as documented | The tables of COMMANDS.md as specification; the map of names, keyed by the constants as in the code, holds the same entries (kernel computation over the table); decoding composed with `Command.String` for all messages. |
| C193 Calls on devices return | All device calls as one inductive type, run one after the other over `Live` with a port whose writes may fail (`Live.faulty`). A message writer that never panics, gives a message with every success and has fewer and fewer messages left is `Orderly`; a running PLM is, since the reader's queue holds ten. Every call over an orderly writer returns (induction on the messages left). Expected false where a request for links is taken for a record, for a negative index, and for links cut short. |
| C194 Waiting for an answer ends | `Timed`: reads with arrival times. Induction over the messages still to come: the wait ends at most one timeout after the last message. Expected false with a bound given by the settings alone: every message of any device starts the timer again. |
| C195 Calls on the modem return | As C193 for the calls on the modem, alone and mixed with calls on devices: the reader's queue and the answers on the line bound every wait; a success of a write comes with a packet that has the payload its decoder needs. |
| C196 A walk over the devices ends and leaves none out | `Iwalk.walk` over `Live`: opening, reading and storing over an orderly writer never panic while the database has a map (induction over the devices named). Expected false where C193 is, and with a file that contains `null`. |
| C197 The commands of ic for a device end | `IcCommand`: the subcommands as one inductive type, run by `IcDev.run` over `Live`; each is a call of C193 or a few of them. With the question: `IcPlm.openAsk`, `Spec.IcCommand.asking`, by the lemmas of C201. Expected false for four commands of `ic switch` (C141) and where C193 is. |
| C198 A call on a device ends with the first failure and reports it | `Spec.watch` puts around any message writer an observer that notes the first error and whether the writer is used again; `DeviceCall.report` has the error of each of the 52 calls. Induction over the loops. Expected false for `UpdateLinks`, whose appending loop has no break. |
| C199 A call on a device talks to that device only, in its own words, and no longer than it has to | `Spec.record` puts a record of what is sent around any message writer; `DeviceCall.target`, `vocabulary`, `most` and `Asks` say of each of the 52 calls whom it addresses, with which command bytes, how often, and whether it only asks. Induction over the loops, counting. |
| C200 Linking over the serial line makes the links and leaves the program in step with the modem | `Spec.Premises`: a house in bytes — modem and devices react to the frames of the host on a `Net`, the modem reports links or not; `LinkTimed.Party` over a running PLM (`Wired`). Symbolic execution of each call for all networks, with what is left in the queues. Expected false with a modem that reports. |
| C201 The commands of ic for the modem end | `IcPlm.linkCmd` is `ic plm link` with the database and the sleeps; `Spec.IcModemCommand` lists the ten commands over a running PLM, with bytes arriving during sleeps. The measure of C193 and C195 (messages and answers that can still come) through every command. Expected false for a database file with `null`. |
| C202 A command of ic that failed says so | The message writers of C198 that note failures (`Spec.watch`) under the whole program (`IcCommand.over`: database, opening, `init`, command); `Ic.exitStatus` is `main`. Composition of the lemmas of C198. Expected false for `dimmer config`. |
| C203 Calls on devices made by several goroutines | `Spec.IsCall`: a program (`Prog`, as in C150) that is a call on a device through the PLM in every world; `Team` runs such programs in any interleaving. Every call is a conversation (`Spec.Talk`, by induction over its structure for all calls), which determines the program; what a goroutine did in a run (`Spec.ownSteps`) is a path through it. |
| C204 Calls on devices depend on nothing but the answers | `Spec.AnswerAlike` relates two message writers, `Spec.DeviceCall.result` is a call with all it returns. From the conversations of C203: simulation by induction. Panics: conversations end there (`Talk.Unwinds`). |
| C205 The serial line is transparent for calls on devices | `Spec.Network`: any behaviour of modem and devices in terms of messages; `Network.modem` is the same in bytes at the other end of a `Wired` PLM, `Network.writer` a message writer without bytes, frames and channels. The two answer alike (the reader for all noise, the queues with overflow, the attempts), then C204. |
| C206 Failures of the port in calls on the modem | `Spec.watchPort` notes the first failure of any port and whether the port is used after it. Induction over the loops of every call of `Spec.ModemUse`: a failure is the last thing that happened and is the error. Address and text of the modem drop errors: refuted. |
| C207 What calls on the modem write | `Spec.logged` records what is written to any port; `ModemUse.Writes` says which sequences of frames a call may write, in documented bytes. Induction over retries, records read, records deleted and records written. |
| C208 Commands of ic for devices are determined by the answers | Two connections answer alike when a relation of their states is kept by sending and receiving with equal results (`AnswerAlike` of C204). Each command of ic is a program of such steps: simulation through opening the device, the database file, the calls and the text; the serial line is an instance by C205. |
| C209 Calls on the modem made by several goroutines | A call is a program when it comes to the same in every world (`IsModemCall`); each call is one. A goroutine's own steps in a run of a `Team`, replayed in a world where nothing works afterwards, make the call end, so C207 says what it writes, of which the goroutine has written a beginning. |
| C210 Replacing the modem's links by several goroutines at once | Refuted by two goroutines that both write before either reads its answer, with the modem of C15 on the other end (`servedBy`). Partial: every record in the modem at any moment was there before or was given to one of the calls, by C209 and what each frame does to the database. |
| C211 The text of an error tells which error it is | The texts as a function of the error; all pairs of the errors that have a fixed text are compared (a finite set, the whole of it), the rest have none. Refuted for the two read timeouts. |
| C212 An error about too few bytes says how many are missing | The numbers in the error as a function of the data, next to the decoders: when there are numbers, and that appending bytes makes the error go away exactly from the difference on (`Lacks`). Refuted for requests about links. |
| C213 Links shown on a stream arrive whole or the error is returned | The templates as lists of pieces, each one write; `Execute` stops at the first failure. The pieces together are the text of C135/C136's model; induction over the pieces for any writer (`Arrives`), and a writer that notes its first failure and any use after it. |
| C214 Files made from the table of commands say what the table says | The two templates as functions from a table to text, with the escaping of `html/template`. The text is shown to be a list of lines; each line either declares a constant, gives a name, is a row, or can be none of these by its first characters. Names and rows are false for texts with `&` and the like (refuted). The table of the project is transcribed and compared with the maps of C192 by the kernel. |
| C215 The file of device categories names what the table of categories lists | `parseHex`, `data` and the template as functions of domains and records; a record that cannot be read or has no domain is the end of the program. Induction over the records shows which categories each domain gets; the text is shown to be a list of lines, of which only the entries can name a category and only the constants can declare a domain. The project's table and devcats.go are written out and compared by the kernel. |
| C216 The table of device categories is read from its file as it was written | the reader of `encoding/csv` as the generator uses it: lines, quotes, fields, the number of fields, with fuel for the loops. A separate specification says how rows are written with commas, quotes and line ends. Induction over the written table shows that it is read back; a measure of the text left shows that reading any file ends. The text of internal/devcats.csv is written out; the kernel checks that its lines write the records of C215. |
| C217 Numbers in the table of device categories are read as Go writes numbers, and a table with anything else is refused | `strconv.ParseInt` with base 0: sign, base, digits, underscores, range. A separate grammar says which text stands for which number. Induction over the digits relates the loop and the check of underscores to it; a table is shown to be made into a file exactly if all its numbers are numbers and its domains are known. |

## Trusted base

* Lean 4.33.0 kernel. Axioms used by the theorems: at most `propext`,
  `Classical.choice`, `Quot.sound` (checked with `#print axioms`). No axioms are added, no
  `sorry`, no `native_decide`, no `bv_decide`.
* The correspondence between `/repo` and `lean/Verif/Model`, which is by
  reading; each definition cites the lines it models. As a check of that reading, the tables of
  the project's `_test.go` files are carried over to the model in `lean/Verif/Tests` (about 380
  `example`s): the model gives the results the authors expect. These are tests of the model, not
  proofs, and no entry of `MANIFEST.json` refers to them.
* The behaviour of the Go standard library functions the code calls (`fmt.Sscanf`,
  `fmt.Sprintf`, `strconv.Atoi`, `bytes.Fields`, `strings.Split`, `bufio.Reader`,
  `encoding/json`, `encoding/csv`, `strconv.ParseInt`, `html/template`, channels), modelled as described at each definition.

## What is modelled and what is not

| Code | Modelled | Not modelled |
| --- | --- | --- |
| `address.go`, `util.go` | parsing, formatting, wire bytes, JSON, `ReadWithTimeout` | `Get`, the unused `checksum` of `util.go` |
| `message.go` | flags, constructors, classification, duplicate test, wire format, texts | nothing |
| `insteon.go`, `error.go` | categories, JSON text, error identities and wrapping, texts, among them those of errors (C211, C212) | stack traces in errors, texts of errors made on the spot |
| `link.go` | flags, groups, records: wire and text forms, comparison | `Get` |
| `commands/` | construction, sub-commands, matching, all commands and their names | nothing |
| `plm/` | packets, reader, retry writer, logging reader and writer, port, read loop and queues, snooping, calls, waiting and sleeping, configuration, info, address, linking modes, link database, `delayWriter` (never used) | scheduling delays |
| `devices/` | connection, matchers, filters, basic device, link database, switch, dimmer, thermostat, opening, `String`/`Dump`, the sleep after linking mode | float32 overflow and subnormal numbers (temperatures are 0 or between 0.1 and 120000) |
| `util/database.go` | in-memory database, JSON, file, save and load with crashes | file permissions |
| `util/link.go` | searching, sorting, anonymizing, linking, unlinking, cross-linking, fixing, printing and dumping tables, to streams that fail among them (C213) | the template engine |
| `util/snoop.go` | the filter and everything it prints | error texts, later changes to a cached message |
| `util/vars.go` | all | `Get` |
| `cmd/ic`, `cmd/anonymize` | starting, arguments, opening with a question, all sub-commands, `edit`, `monitor`, anonymizing | terminal handling, the command line framework |
| `cmd/isnoop` | the goroutines, pipes, channel and monitor, failing reads and writes of the port and the terminal | flags, opening the port |
| `cmd/iwalk` | the walk, starting | flags, opening the port |
| `internal/` | the tables of commands and of device categories, `commands.go.tmpl`, `COMMANDS.md.tmpl`, `devcats.go.tmpl`, `license.tmpl` with the escaping of `html/template`; the reading of `devcats.csv` by `encoding/csv` | `format.Source` (white space only), errors of files |
| `devcats.go` | the numbers of the categories, as used by `Lookup`; the table of names (C215), used nowhere | nothing |

Concurrency: the read loop of the PLM runs against the caller in any interleaving (`Port`), and as part of a running PLM in
`Live`. Several callers at once are modelled in `Shared` (commands, writing and reading messages) and, running any program, in `Team`, whole calls on devices (C203) and on the modem (C209, C210) among them; everywhere
else callers are sequential. Steps are accesses to the port and the channels; the Go memory model is not represented. The calls share two more
variables: the timeout, which `Reset` changes (`ResetSt`), and the links kept from the last reading, which are an argument of the calls in `Team`.

{"id": "C01", "title": "Address text round trip", "statement": "Formatting an Insteon address and parsing the text back yields the same 24-bit address; the text is always exactly 8 characters, lower-case hex bytes separated by dots, and two distinct 24-bit addresses never have the same text. Removing the dots (six-digit form) or upper-casing the digits parses to the same address.", "quantifier": "all 2^32 values of Address (round trip exact on the 2^24 valid addresses, modulo 2^24 on the others)", "why_tests_cant": "2^24 addresses and a hand-written scanf format; tests check a handful of literals", "anchors": ["address.go:Address.String", "address.go:Address.UnmarshalText", "address.go:Address.Set"]}
{"id": "C02", "title": "Address parsing is total, safe and bounded", "statement": "Parsing any text either fails with the address-format error and leaves the receiver unchanged, or succeeds with a value below 2^24 whose three bytes are each written in the text. Nothing panics.", "quantifier": "all byte strings of any length used as input text, all previous receiver values", "why_tests_cant": "the input space is all byte strings; partial updates on the failure path are invisible to example tests", "anchors": ["address.go:Address.UnmarshalText"]}
{"id": "C03", "title": "Address parsing rejects malformed text", "statement": "Only text that consists of exactly three hex bytes (dotted, or six digits) is accepted as an address.", "quantifier": "all byte strings", "why_tests_cant": "a universal claim over all malformed inputs; tests try a few bad literals", "anchors": ["address.go:Address.UnmarshalText"]}
{"id": "C04", "title": "Address wire bytes round trip", "statement": "An address written as its three wire bytes and read back is unchanged, most significant byte first; conversely any three bytes read as an address are written back identically.", "quantifier": "all 32-bit Address values, all 3-byte wire strings, all longer and shorter buffers for Put", "why_tests_cant": "2^24 values and all buffer lengths", "anchors": ["address.go:Address.Bytes", "address.go:Address.Put"]}
{"id": "C05", "title": "SubCommand replaces only the second command byte", "statement": "cmd.SubCommand(x) keeps the command class and first command byte of cmd and sets the second command byte to the low 8 bits of x, for every x including negative and oversized values; applying it twice keeps only the last value.", "quantifier": "all 64-bit commands and all 64-bit integer arguments", "why_tests_cant": "2^128 argument pairs; sign and width effects of Go integer masking", "anchors": ["commands/command.go:Command.SubCommand", "commands/command.go:Command.Command0", "commands/command.go:Command.Command1", "commands/command.go:Command.Command2", "commands/command.go:Command.Set"]}
{"id": "C06", "title": "Commands decoded from the wire", "statement": "commands.From keeps the two command bytes exactly, chooses the command class from the message type (extended, broadcast, all-link, otherwise direct) and never depends on the hop counts, so a retransmitted message decodes to the same command.", "quantifier": "all 2^24 combinations of flag byte and command bytes", "why_tests_cant": "the class decision has eight message types times two lengths times sixteen hop settings", "anchors": ["commands/command.go:From"]}
{"id": "C07", "title": "Command matching distinguishes commands", "statement": "A matcher for a command only accepts messages that carry that command (same class and same first command byte).", "quantifier": "all pairs of commands", "why_tests_cant": "negative claim over all other commands; tests only use positive cases", "anchors": ["commands/command.go:Command.Matches", "devices/matcher.go:CmdMatcher"]}
{"id": "C08", "title": "Message flag construction and accessors agree", "statement": "A flag byte built from a message type, an extended bit and two hop counts (each at most 3) reports exactly those four components; hop counts above 3 yield the all-zero flag byte.", "quantifier": "all eight message types, both lengths, all 256x256 hop values", "why_tests_cant": "cross product of bit fields packed in one byte; a wrong mask shows up only for particular combinations", "anchors": ["message.go:Flag", "message.go:Flags.Type", "message.go:Flags.Extended", "message.go:Flags.TTL", "message.go:Flags.MaxTTL"]}
{"id": "C09", "title": "Message classification is a partition", "statement": "Every flag byte is exactly one of acknowledgement, negative acknowledgement, or neither; exactly one of standard and extended; its type is one of the eight documented types; and a type is exactly one of direct and broadcast, with broadcast being precisely the broadcast and all-link broadcast types.", "quantifier": "all 256 flag bytes", "why_tests_cant": "exhaustive disjointness and coverage claim", "anchors": ["message.go:Flags.Ack", "message.go:Flags.Nak", "message.go:Flags.Standard", "message.go:Flags.Extended", "message.go:MessageType.Broadcast", "message.go:MessageType.Direct", "message.go:MessageType.AllLink"]}
{"id": "C10", "title": "Hop counters are independent fields", "statement": "Setting the hops-left or max-hops counter stores the value modulo 4 and changes no other bit of the flag byte; the order of the two setters does not matter.", "quantifier": "all flag bytes and all 8-bit hop values", "why_tests_cant": "frame property over all bit patterns", "anchors": ["message.go:Flags.SetTTL", "message.go:Flags.SetMaxTTL"]}
{"id": "C11", "title": "Message wire round trip", "statement": "Encoding a message and decoding the bytes into a fresh message gives back the same source, destination, flags, command bytes, command class implied by the flags, and (for extended messages) the payload padded with zeros or cut to 14 bytes.", "quantifier": "all messages: every address, flag byte, command and payload of any length", "why_tests_cant": "unbounded payload lengths and 2^80 header values", "anchors": ["message.go:Message.MarshalBinary", "message.go:Message.UnmarshalBinary"]}
{"id": "C12", "title": "Wire bytes round trip through a message", "statement": "Decoding any sufficiently long wire buffer and re-encoding it reproduces the first 9 (standard) or 23 (extended) bytes; decoding a buffer that is too short reports buffer-too-short and never panics.", "quantifier": "all byte strings of any length, all previous receiver contents", "why_tests_cant": "all byte strings", "anchors": ["message.go:Message.UnmarshalBinary", "message.go:Message.MarshalBinary"]}
{"id": "C13", "title": "Duplicate detection ignores only the hops left", "statement": "Two messages are duplicates exactly when everything except the remaining hop count matches; the relation is an equivalence, so retransmissions of one message are duplicates of each other whatever their remaining hops.", "quantifier": "all pairs and triples of messages", "why_tests_cant": "relation over pairs of unbounded messages; the ack/nak bits are easily missed", "anchors": ["message.go:Message.Duplicate"]}
{"id": "C14", "title": "Message equality is field equality", "statement": "Equals reports true exactly when source, destination, flags, command and payload are all equal; equal messages encode to the same bytes and are duplicates of each other.", "quantifier": "all pairs of messages", "why_tests_cant": "equivalence over unbounded payloads", "anchors": ["message.go:Message.Equals"]}
{"id": "C15", "title": "Link flag setters are independent and complementary", "statement": "In-use/available, controller/responder and last-record are three independent attributes of a record's flags: each setter establishes its attribute, undoes its opposite, and leaves every other bit unchanged; available is exactly not-in-use and responder exactly not-controller.", "quantifier": "all 256 flag bytes and all sequences of setter calls", "why_tests_cant": "frame property over all bit patterns and call sequences", "anchors": ["link.go:RecordControlFlags"]}
{"id": "C16", "title": "Link flag text round trip", "statement": "The two-character text of link flags parses back to flags with the same availability and role and preserves the receiver's other bits; any text that is not A/U followed by C/R is rejected.", "quantifier": "all flag bytes, all receivers, all byte strings", "why_tests_cant": "all byte strings as malformed input", "anchors": ["link.go:RecordControlFlags.String", "link.go:RecordControlFlags.UnmarshalText"]}
{"id": "C17", "title": "Link record wire round trip", "statement": "A link record encodes to exactly 8 bytes and decodes back to the same record (24-bit address); any 8-byte string decodes and re-encodes to itself; shorter input is rejected and leaves the record unchanged.", "quantifier": "all link records, all byte strings", "why_tests_cant": "2^64 records and all buffer lengths", "anchors": ["link.go:LinkRecord.MarshalBinary", "link.go:LinkRecord.UnmarshalBinary"]}
{"id": "C18", "title": "Link record identity", "statement": "Two link records are Equal exactly when they have the same availability, role, group and 24-bit address; data bytes never matter. The relation is an equivalence and agrees with the record ID used as database key.", "quantifier": "all pairs of link records", "why_tests_cant": "equivalence over all pairs; documented fields must all matter and no others", "anchors": ["link.go:LinkRecord.Equal", "link.go:LinkRecord.ID"]}
{"id": "C19", "title": "Link record text round trip", "statement": "The text form of a link record parses back to a record with the same availability, role, group, address and data, and never marked as end of database.", "quantifier": "all link records", "why_tests_cant": "composition of four printf/scanf-style codecs with field padding; 2^64 records", "anchors": ["link.go:LinkRecord.MarshalText", "link.go:LinkRecord.UnmarshalText"]}
{"id": "C20", "title": "Link list text round trip", "statement": "Printing a list of link records for editing (with or without the comment heading) and parsing the text back yields the same records in the same order; comment lines and blank lines never produce records.", "quantifier": "all lists of link records of any length, both heading settings, any interleaving of blank and comment lines", "why_tests_cant": "unbounded lists; line splitting, trimming and field splitting compose", "anchors": ["util/link.go:LinksToText", "util/link.go:TextToLinks", "util/textlinks.tmpl"]}
{"id": "C21", "title": "Malformed link text is rejected", "statement": "Text whose data bytes are not plain hex bytes is rejected rather than silently read as another value.", "quantifier": "all text lines", "why_tests_cant": "universal claim over malformed inputs", "anchors": ["link.go:LinkRecord.UnmarshalText", "util/link.go:TextToLinks"]}
{"id": "C22", "title": "Group text parsing accepts exactly 0 to 255", "statement": "Parsing a group succeeds exactly for a decimal integer between 0 and 255 and stores that value; every group prints to text that parses back to it; on failure the group is unchanged.", "quantifier": "all byte strings, all groups", "why_tests_cant": "all byte strings; overflow and sign handling", "anchors": ["link.go:Group.String", "link.go:Group.UnmarshalText"]}
{"id": "C23", "title": "Modem echo decoding", "statement": "For every host command, the modem's echo of the transmitted packet followed by one status byte decodes to the same command, the same payload and that status byte (with three zero source-address bytes in front for sent Insteon messages).", "quantifier": "all host commands in the command table, all payloads of the right length, all status bytes", "why_tests_cant": "30 commands with different lengths times all payloads", "anchors": ["plm/packet.go:Packet.MarshalBinary", "plm/packet.go:Packet.UnmarshalBinary", "plm/command.go:commandLens"]}
{"id": "C24", "title": "Serial stream framing", "statement": "For every sequence of well-formed modem packets, each preceded by arbitrary line noise that contains no start-of-text byte followed by a command byte, the packet reader returns exactly those packets, in order, with nothing lost, merged or invented.", "quantifier": "all finite sequences of packets, all noise strings between them", "why_tests_cant": "unbounded streams; off-by-one in any packet length desynchronises everything after it", "anchors": ["plm/port.go:packetReader.sync", "plm/port.go:packetReader.read", "plm/port.go:packetReader.ReadPacket", "plm/command.go:commandLens"]}
{"id": "C25", "title": "Packet reader never overruns its buffer", "statement": "Whatever bytes arrive, reading a packet never indexes outside the fixed 25-byte buffer, never panics, and every packet it returns has a known command code and was sent as contiguous bytes starting with the start-of-text byte.", "quantifier": "all byte streams", "why_tests_cant": "all byte streams; memory safety of fixed-size buffer arithmetic", "anchors": ["plm/port.go:packetReader.read", "plm/packet.go:maxPaclen"]}
{"id": "C26", "title": "Packet reader stops at end of stream", "statement": "When the serial stream ends, reading a packet returns an error after finitely many steps.", "quantifier": "all finite byte streams", "why_tests_cant": "termination over all inputs; a hang is not observable in finite time", "anchors": ["plm/port.go:packetReader.sync"]}
{"id": "C27", "title": "Snooped host traffic framing", "statement": "With ack bytes disabled (snooping the transmit side) every host-to-modem packet is framed with exactly its own bytes.", "quantifier": "all host commands and payloads", "why_tests_cant": "each command has its own length rule", "anchors": ["plm/port.go:packetReader.sync", "plm/snoop.go:Snoop"]}
{"id": "C28", "title": "Received packets are routed in order without silent reordering", "statement": "Insteon messages and modem packets are queued separately, each in arrival order; a queue never holds more than ten packets; a packet is dropped only if its queue is full at arrival; what the consumer reads is a subsequence of what arrived.", "quantifier": "all interleavings of packet arrivals and consumer reads, of any length", "why_tests_cant": "concurrent goroutine and channels; all schedules", "anchors": ["plm/plm.go:PLM.readLoop", "plm/plm.go:PLM.Read", "plm/plm.go:PLM.ReadPacket"]}
{"id": "C29", "title": "A successful modem write means a faithful echo", "statement": "WritePacket reports success only if the modem's next packet is a positive acknowledgement of the same command echoing the same payload (payload not compared for the two query commands); a negative acknowledgement is always reported as a NAK.", "quantifier": "all transmitted packets and all packets the modem may answer with", "why_tests_cant": "all pairs of request and reply, including adversarial replies", "anchors": ["plm/plm.go:PLM.WritePacket"]}
{"id": "C30", "title": "Modem retries are bounded and transparent", "statement": "The retrying writer sends the identical packet at most retries+1 times, stops at the first outcome that is not retryable, and returns the outcome of the last attempt.", "quantifier": "all retry counts, all sequences of modem outcomes", "why_tests_cant": "all outcome sequences", "anchors": ["plm/port.go:retryWriter.WritePacket"]}
{"id": "C31", "title": "Modem timeouts are retried", "statement": "If the modem does not answer in time the packet is sent again while retries remain.", "quantifier": "all retry counts, all modems that time out", "why_tests_cant": "depends on error wrapping versus sentinel comparison; tests stub the lower layer", "anchors": ["plm/port.go:retryWriter.WritePacket", "plm/plm.go:PLM.ReadPacket"]}
{"id": "C32", "title": "Message acknowledgement comes from the addressed device", "statement": "PLM.Write returns without error only with a message that is a positive ack whose source is the destination of the written message; a NAK from that device is reported as ErrNak together with the NAK message; unrelated traffic in between never satisfies the wait.", "quantifier": "all written messages, all sequences of received messages", "why_tests_cant": "unbounded interleaved traffic", "anchors": ["plm/plm.go:PLM.Write"]}
{"id": "C33", "title": "Reading after the port is closed is an error", "statement": "After the serial port is closed, reading a message or writing a packet returns an error.", "quantifier": "all histories ending in a closed port", "why_tests_cant": "shutdown schedule; needs the goroutine to have exited", "anchors": ["plm/plm.go:PLM.readLoop", "plm/plm.go:PLM.Read", "plm/plm.go:PLM.ReadPacket"]}
{"id": "C34", "title": "Modem configuration bits", "statement": "The four configuration switches are independent bits; a configuration sent to and read back from the modem keeps all four switches; only the four defined bits are ever sent.", "quantifier": "all 256 configuration bytes, all setter sequences", "why_tests_cant": "bit-field frame property", "anchors": ["plm/config.go:Config", "plm/plm.go:PLM.SetConfig"]}
{"id": "C35", "title": "Reading the modem link database is complete", "statement": "Against a modem that answers get-first/get-next with its records in order and NAKs at the end, Links returns exactly the modem's records, in order, for any number of records; if anything else goes wrong the error is returned.", "quantifier": "all modem databases of any length, interleaved unrelated modem packets", "why_tests_cant": "unbounded database length; protocol interaction", "anchors": ["plm/linkdb.go:linkdb.refresh", "plm/linkdb.go:linkdb.Links"]}
{"id": "C36", "title": "Rewriting the modem link database", "statement": "WriteLinks leaves the modem's database holding exactly the given links.", "quantifier": "all previous databases and all lists of new links", "why_tests_cant": "multi-step update against external state", "anchors": ["plm/linkdb.go:linkdb.WriteLinks"]}
{"id": "C37", "title": "Recovery from a corrupted modem write deletes the corrupted record", "statement": "When the modem echoes back a record different from the one written, the record deleted before retrying is the one the modem echoed.", "quantifier": "all written and echoed records", "why_tests_cant": "needs a corrupted echo; depends on byte offsets in the recovery path", "anchors": ["plm/linkdb.go:linkdb.WriteLinks"]}
{"id": "C38", "title": "Device iteration visits each linked address once", "statement": "IterateDevices calls the callback exactly once for each distinct address in the modem's database, in order of first appearance, and not at all on error.", "quantifier": "all databases", "why_tests_cant": "unbounded lists with repetitions", "anchors": ["plm/linkdb.go:linkdb.IterateDevices"]}
{"id": "C39", "title": "Outgoing device messages are addressed and framed", "statement": "Every message written through a device goes to that device's address, is flagged direct, and is extended exactly when it has a payload; standard messages carry three hops.", "quantifier": "all devices, all messages", "why_tests_cant": "all messages and device infos", "anchors": ["devices/basic.go:BasicDevice.Write"]}
{"id": "C40", "title": "All outgoing device messages use the maximum hop count", "statement": "Every message written through a device is sent with three hops.", "quantifier": "all devices and messages", "why_tests_cant": "all messages", "anchors": ["devices/basic.go:BasicDevice.Write"]}
{"id": "C41", "title": "Extended messages to I2CS devices carry a valid checksum", "statement": "For an I2CS device every extended message goes out with a 14-byte payload in which the two command bytes plus the payload sum to zero modulo 256.", "quantifier": "all commands and all payloads of any length", "why_tests_cant": "all payloads; arithmetic identity modulo 256", "anchors": ["devices/basic.go:BasicDevice.writeWithChecksum", "devices/util.go:checksum", "devices/util.go:setChecksum"]}
{"id": "C42", "title": "Waiting for a response returns the first match", "statement": "Read returns the first message that satisfies the matcher, having skipped only non-matching messages, or the first read error; it consumes nothing after the message it returns.", "quantifier": "all message streams, all matchers", "why_tests_cant": "unbounded streams", "anchors": ["devices/connection.go:Read"]}
{"id": "C43", "title": "Engine version query decision table", "statement": "GetEngineVersion reports the second command byte of the ack as version; a NAK with 0xff means an unlinked I2CS device; any other NAK or error is passed on and never yields a usable version.", "quantifier": "all write outcomes", "why_tests_cant": "all ack contents and errors", "anchors": ["devices/connection.go:GetEngineVersion"]}
{"id": "C44", "title": "Identification comes from the queried device", "statement": "IDRequest returns the category and firmware announced by the device that was queried.", "quantifier": "all received message sequences", "why_tests_cant": "requires adversarial interleaving of other devices' broadcasts", "anchors": ["devices/connection.go:IDRequest"]}
{"id": "C45", "title": "Opening a device", "statement": "Open yields a device exactly when both queries succeed or the device reports it is not linked; the returned info carries the requested address and the answers received, and the identification query is not sent if the version query failed.", "quantifier": "all outcomes of the two queries, all filter lists", "why_tests_cant": "all combinations of failures", "anchors": ["devices/device.go:Open"]}
{"id": "C46", "title": "The message cache remembers exactly the last N messages", "statement": "After any sequence of pushes into a cache of capacity N, lookup searches exactly the last N pushed messages, newest first, and returns the newest match.", "quantifier": "all capacities N>0, all push sequences of any length, all matchers", "why_tests_cant": "ring-buffer index arithmetic over unbounded histories", "anchors": ["devices/filters.go:CacheFilter.push", "devices/filters.go:CacheFilter.Lookup", "devices/filters.go:NewCache"]}
{"id": "C47", "title": "Duplicate filter delivers each message once per window", "statement": "With the duplicate filter in place, a received message is delivered exactly when no duplicate of it is among the nine messages most recently read or written; delivered messages keep their order and nothing is invented.", "quantifier": "all interleavings of reads and writes of any length", "why_tests_cant": "unbounded histories; sliding window", "anchors": ["devices/filters.go:FilterDuplicates"]}
{"id": "C48", "title": "Distinct user actions are never swallowed by the duplicate filter", "statement": "Pressing the same button again later is delivered again.", "quantifier": "all received histories", "why_tests_cant": "history dependent", "anchors": ["devices/filters.go:FilterDuplicates"]}
{"id": "C49", "title": "TTL filter sets both hop counters and nothing else", "statement": "With the TTL filter every written message has both hop counters equal to the configured value modulo 4 and is otherwise unchanged; reads are unaffected.", "quantifier": "all integers as TTL, all messages", "why_tests_cant": "all integers and flag bytes", "anchors": ["devices/filters.go:TTL"]}
{"id": "C50", "title": "Retry filter bounds and stops", "statement": "The retry filter writes at least once and at most max(1,tries) times, retries only after a device read timeout, and returns the result of the last attempt.", "quantifier": "all tries values, all outcome sequences", "why_tests_cant": "all outcome sequences", "anchors": ["devices/filters.go:RetryFilter"]}
{"id": "C51", "title": "Retry filter retries modem timeouts", "statement": "When a message written through a modem times out, the retry filter sends it again.", "quantifier": "all modem timeouts", "why_tests_cant": "needs the real modem error values across packages", "anchors": ["devices/filters.go:RetryFilter", "plm/plm.go:PLM.Read", "devices/error.go:ErrReadTimeout"]}
{"id": "C52", "title": "Matchers form a Boolean algebra", "statement": "And, Or and Not of matchers accept exactly the conjunction, disjunction and negation of their parts, for any number of parts, including none; MatchAck accepts exactly non-ack messages addressed to the ack's sender.", "quantifier": "all matcher lists and messages", "why_tests_cant": "unbounded lists", "anchors": ["devices/matcher.go:And", "devices/matcher.go:Or", "devices/matcher.go:Not", "devices/matcher.go:MatchAck"]}
{"id": "C53", "title": "Link database request wire round trip", "statement": "Read, response and write requests survive encoding and decoding (16-bit memory address, link record), are always 14 bytes, leave the last byte free for the checksum, and short or unknown requests are rejected.", "quantifier": "all link requests, all byte strings", "why_tests_cant": "all addresses and records", "anchors": ["devices/linkdb.go:LinkRequest.MarshalBinary", "devices/linkdb.go:LinkRequest.UnmarshalBinary"]}
{"id": "C54", "title": "Reading a device link database tolerates retransmission", "statement": "If a device sends its records in order, each one or more times in a row, followed by the end record, with unrelated messages in between, then Links returns exactly the device's records, each once, in order.", "quantifier": "all databases of any length, all repetition counts, all interleaved unrelated messages", "why_tests_cant": "unbounded schedules of duplicated messages", "anchors": ["devices/linkdb.go:linkdb.refresh", "devices/linkdb.go:linkdb.Links"]}
{"id": "C55", "title": "Writing one link touches one memory slot", "statement": "WriteLink at index i (within the list or one past its end) writes exactly the 8-byte slot of that index; different indexes use disjoint slots inside the device memory; an index past the end sends nothing and reports out of range.", "quantifier": "all indexes and records, all database sizes", "why_tests_cant": "address arithmetic over all indexes", "anchors": ["devices/linkdb.go:linkdb.WriteLink"]}
{"id": "C56", "title": "The local link cache agrees with the device", "statement": "After any sequence of successful link writes the cached list equals what a fresh read of the device would return, provided it did before.", "quantifier": "all sequences of successful and failed link writes", "why_tests_cant": "history dependent; cache coherence", "anchors": ["devices/linkdb.go:linkdb.WriteLink", "devices/linkdb.go:linkdb.Links"]}
{"id": "C57", "title": "Rewriting a device link database", "statement": "After WriteLinks succeeds, the device's database holds exactly the given links.", "quantifier": "all previous databases, all new lists", "why_tests_cant": "depends on previous length of an unbounded list", "anchors": ["devices/linkdb.go:linkdb.WriteLinks"]}
{"id": "C58", "title": "Interrupted link rewrite", "statement": "If WriteLinks fails at the k-th write, the device's first k-1 slots hold the new links and every other slot is untouched.", "quantifier": "all failure points, all databases", "why_tests_cant": "all crash points", "anchors": ["devices/linkdb.go:linkdb.writeLinks"]}
{"id": "C59", "title": "Updating links preserves unrelated records", "statement": "UpdateLinks changes the flags of an existing record in place, fills available records, appends the rest, and leaves all other in-use records intact.", "quantifier": "all databases and all link lists", "why_tests_cant": "index bookkeeping over unbounded lists", "anchors": ["devices/linkdb.go:linkdb.UpdateLinks"]}
{"id": "C60", "title": "Adding links to a device", "statement": "After AddLinks succeeds every added link is in the device's database and no in-use record is lost.", "quantifier": "all databases and all link lists", "why_tests_cant": "index bookkeeping over unbounded lists", "anchors": ["devices/linkdb.go:linkdb.AddLinks"]}
{"id": "C61", "title": "Thermostat mode commands", "statement": "SetMode sends exactly one command, different for every valid mode; an invalid mode is rejected and sends nothing. The same holds for the fan speed and the temperature unit, and switching status messages on or off sends the command for it.", "quantifier": "all modes, fan speeds and units", "why_tests_cant": "exhaustive injectivity", "anchors": ["devices/thermostat.go:Thermostat.SetMode", "devices/thermostat.go:Thermostat.SetFanSpeen", "devices/thermostat.go:Thermostat.SetTempUnit", "devices/thermostat.go:Thermostat.SetStatusMessage"]}
{"id": "C62", "title": "Thermostat temperatures are encoded without loss", "statement": "The setpoint sent for a temperature in degrees decodes (half-degree units) to the same temperature.", "quantifier": "all integer temperatures", "why_tests_cant": "wrap-around at byte width", "anchors": ["devices/thermostat.go:Thermostat.SetCoolSetpoint", "devices/thermostat.go:Thermostat.SetHeatSetpoint", "devices/thermostat.go:ZoneInfo"]}
{"id": "C63", "title": "Thermostat flag decoding", "statement": "Each thermostat operating flag is decoded from its own bit: linking lock, button beep, button lock, temperature unit, time format.", "quantifier": "all 256 flag bytes", "why_tests_cant": "exhaustive bit-field claim", "anchors": ["devices/thermostat.go:ThermostatFlags"]}
{"id": "C64", "title": "Dimmer ramp encoding", "statement": "OnAtRamp encodes level and rate in separate nibbles and picks the command by firmware version; levels and rates from 0 to 15 are recoverable from the transmitted byte.", "quantifier": "all levels, rates and firmware versions", "why_tests_cant": "integer truncation over all ints", "anchors": ["devices/dimmer.go:Dimmer.OnAtRamp", "devices/dimmer.go:Dimmer.OffAtRamp"]}
{"id": "C65", "title": "Switch and dimmer configuration round trip", "statement": "Configurations with byte-sized fields survive encoding and decoding; short buffers are rejected.", "quantifier": "all field values and all buffers", "why_tests_cant": "all field values", "anchors": ["devices/switch.go:SwitchConfig", "devices/dimmer.go:DimmerConfig"]}
{"id": "C66", "title": "Product data round trip", "statement": "Product data that is encoded can be decoded again.", "quantifier": "all product data values", "why_tests_cant": "all values; lengths disagree", "anchors": ["devices/device.go:ProductData"]}
{"id": "C67", "title": "The device database is a map", "statement": "After Put(info), Get(info.Address) finds info, and every other address is unaffected; Get on an address never put reports not found.", "quantifier": "all sequences of puts and gets", "why_tests_cant": "all histories", "anchors": ["util/database.go:memDB.Put", "util/database.go:memDB.Get"]}
{"id": "C68", "title": "A clean database equals its last saved copy", "statement": "Whenever NeedsSaving is false the content equals what was last successfully saved (or the initial content).", "quantifier": "all sequences of put, save (successful or failing) and open", "why_tests_cant": "all histories including failed saves", "anchors": ["util/database.go:memDB.Save", "util/database.go:memDB.NeedsSaving", "util/database.go:memDB.Put"]}
{"id": "C69", "title": "Saving and loading the database", "statement": "Loading what Save wrote into any database restores exactly the saved content, for every database of three-byte addresses, and the text written does not depend on map iteration order.", "quantifier": "all database contents with 24-bit addresses", "why_tests_cant": "all maps", "anchors": ["util/database.go:memDB.MarshalJSON", "util/database.go:memDB.UnmarshalJSON", "insteon.go:DevCat.MarshalJSON"]}
{"id": "C70", "title": "Saving to a file survives a crash", "statement": "If the program stops at any point while saving, the file still holds either the old or the new database.", "quantifier": "all crash points", "why_tests_cant": "all crash points", "anchors": ["util/database.go:SaveDB"]}
{"id": "C71", "title": "Opening through the database", "statement": "Opening a known device causes no traffic and uses the stored info; opening an unknown device stores its info exactly when the open succeeds; a device that is not linked is never stored.", "quantifier": "all databases, all outcomes", "why_tests_cant": "all failure combinations", "anchors": ["util/database.go:memDB.Open", "util/database.go:fileDB.Open"]}
{"id": "C72", "title": "Filters given to the database are applied", "statement": "The filters passed when opening a device through the database take effect on the returned device's traffic.", "quantifier": "all databases, all filters", "why_tests_cant": "known and unknown devices take different paths", "anchors": ["util/database.go:memDB.Open", "util/database.go:fileDB.Open"]}
{"id": "C73", "title": "Database filtering by domain", "statement": "Filter returns exactly the addresses whose category belongs to one of the given domains, each once.", "quantifier": "all databases and domain lists", "why_tests_cant": "all maps", "anchors": ["util/database.go:memDB.Filter", "insteon.go:DevCat.In"]}
{"id": "C74", "title": "Finding a link record", "statement": "FindLinkRecord returns the first in-use record with the given role, address and group, and link-not-found exactly when there is none.", "quantifier": "all databases and keys", "why_tests_cant": "unbounded lists", "anchors": ["util/link.go:FindLinkRecord"]}
{"id": "C75", "title": "Finding duplicate links", "statement": "FindDuplicateLinks returns a record exactly when an earlier record is equal to it under the given relation.", "quantifier": "all lists and relations", "why_tests_cant": "unbounded lists", "anchors": ["util/link.go:FindDuplicateLinks"]}
{"id": "C76", "title": "Anonymizing links", "statement": "Anonymize keeps length, order, flags, groups and data; equal addresses stay equal; replacements are used in order of first appearance; when all replacements are distinct and sufficient, distinct addresses stay distinct.", "quantifier": "all lists, replacements and random sources", "why_tests_cant": "unbounded lists", "anchors": ["util/link.go:Anonymize"]}
{"id": "C77", "title": "Missing crosslinks are sound", "statement": "Every record reported by MissingCrosslinks mirrors an in-use record for one of the given addresses and has no in-use counterpart in the list.", "quantifier": "all lists and addresses", "why_tests_cant": "unbounded lists", "anchors": ["util/link.go:MissingCrosslinks"]}
{"id": "C78", "title": "Missing crosslinks are complete", "statement": "Every in-use record for one of the given addresses that lacks its counterpart is reported.", "quantifier": "all lists and addresses", "why_tests_cant": "unbounded lists, several groups per address", "anchors": ["util/link.go:MissingCrosslinks"]}
{"id": "C79", "title": "Removing links", "statement": "RemoveLinks marks exactly the matching records available, leaves all other records as they were, and reports an error if a write failed.", "quantifier": "all databases, all removal lists, all write outcomes", "why_tests_cant": "unbounded lists and failure points", "anchors": ["util/link.go:RemoveLinks"]}
{"id": "C80", "title": "Forcing a link always leaves linking mode", "statement": "Once the controller has reported that it entered linking mode, ForceLink and Unlink tell both devices to leave it whatever happens in between, and report the responder's error.", "quantifier": "all outcomes of all four calls", "why_tests_cant": "all failure combinations", "anchors": ["util/link.go:ForceLink", "util/link.go:Unlink"]}
{"id": "C81", "title": "Linking is idempotent", "statement": "If both half-links already exist, Link changes nothing; otherwise it runs exactly one linking session after removing a stale half-link.", "quantifier": "all pairs of databases", "why_tests_cant": "all pairs of unbounded databases", "anchors": ["util/link.go:Link"]}
{"id": "C82", "title": "Cross-linking covers every pair", "statement": "CrossLinkAll links every unordered pair of distinct devices in both directions and stops at the first error.", "quantifier": "all device lists", "why_tests_cant": "unbounded lists", "anchors": ["util/link.go:CrossLinkAll", "util/link.go:CrossLink"]}
{"id": "C83", "title": "Unlinking all groups reports failures", "statement": "UnlinkAll runs an unlink for every record of the controller that names the responder and reports an error if any of them failed.", "quantifier": "all databases and failure points", "why_tests_cant": "all failure points", "anchors": ["util/link.go:UnlinkAll"]}
{"id": "C84", "title": "Link sort order", "statement": "The order used for printing is a strict weak order: numeric address first, then group.", "quantifier": "all pairs and triples of link records", "why_tests_cant": "order laws over all triples; string comparison versus numeric order", "anchors": ["util/link.go:Links.Less"]}
{"id": "C85", "title": "Propagation delay grows with hops and length", "statement": "The computed propagation delay never decreases when the hop count or the message length grows.", "quantifier": "all hop counts and lengths", "why_tests_cant": "all 8-bit hop counts; overflow", "anchors": ["util.go:PropagationDelay"]}
{"id": "C86", "title": "Resending a message keeps its checksum valid", "statement": "Sending the same extended message object a second time to an I2CS device (as the retry filter does) puts a frame with a valid checksum on the wire again.", "quantifier": "all extended messages and all numbers of attempts", "why_tests_cant": "tests send each message once; the first send changes the caller's message, and the error depends on all payload bytes", "anchors": ["devices/basic.go:BasicDevice.Write", "devices/util.go:setChecksum", "devices/filters.go:RetryFilter"]}
{"id": "C87", "title": "Links of a device come from that device", "statement": "Links of a device returns only records that this device sent, whatever other devices send meanwhile.", "quantifier": "all receive histories, with database messages of other devices anywhere", "why_tests_cant": "tests feed only messages of the device under test; interleavings with other traffic are unbounded", "anchors": ["devices/linkdb.go:linkdb.refresh", "devices/matcher.go:CmdMatcher"]}
{"id": "C88", "title": "Reading a device link database twice", "statement": "Two successive downloads from an unchanged device return the same list.", "quantifier": "all databases and numbers of end record copies", "why_tests_cant": "a retransmitted end record left over from the first download ends the second one at once; needs all retransmission patterns", "anchors": ["devices/linkdb.go:linkdb.refresh"]}
{"id": "C89", "title": "Updating links twice", "statement": "Calling UpdateLinks a second time with the same links changes nothing on the device.", "quantifier": "all databases, cached lists and lists of links", "why_tests_cant": "depends on the state left by the first call, for all databases", "anchors": ["devices/linkdb.go:linkdb.UpdateLinks"]}
{"id": "C90", "title": "Light control commands", "statement": "Each control method of a switch or dimmer (on, off, on fast, brighten, dim, start and stop of manual change, instant change, set status, load sense, backlight) writes exactly one message to its device, with the first and second command byte documented for it, and reports exactly the error of that write.", "quantifier": "every device, link layer, state, level and argument", "why_tests_cant": "the command byte is computed from an unbounded argument and the method must behave for every outcome of the write", "anchors": ["devices/switch.go: TurnOn, TurnOff, SetLoadSense, SetBacklight", "devices/dimmer.go: OnLevel, Brighten, Dim, StartBrighten, StartDim, StopManualChange, OnFast, InstantChange, SetStatus"]}
{"id": "C91", "title": "Queries ask the documented questions and return the answers", "statement": "A status, mode, temperature, equipment, fan, flag or zone query sends its documented questions in order to its device, stops at the first error, which it reports, and returns the second command bytes of the answers.", "quantifier": "every device, link layer, state and sequence of answers", "why_tests_cant": "the sequence of answers and errors is arbitrary", "anchors": ["devices/switch.go: Status, OperatingFlags", "devices/thermostat.go: GetMode, GetAmbientTemp, GetEquipmentState, GetFanSpeed, GetZoneInfo"]}
{"id": "C92", "title": "Configuration answers come from the queried device", "statement": "The configuration or product data reported for a device was sent by that device.", "quantifier": "every stream of incoming messages", "why_tests_cant": "which messages of other devices arrive, and when, is arbitrary", "anchors": ["devices/switch.go: Config", "devices/dimmer.go: Config", "devices/device.go: ExtendedGet, ProductData"]}
{"id": "C93", "title": "Thermostat information decoding", "statement": "Every 14 byte answer of data set 0 or 1 is decoded field by field, with the temperature in tenths of a degree converted to the unit of the flags; shorter answers and other data sets are rejected without changing anything.", "quantifier": "every byte string and previous content", "why_tests_cant": "the domain is all byte strings", "anchors": ["devices/thermostat.go: ThermostatInfo.UnmarshalBinary"]}
{"id": "C94", "title": "Raising the temperature has one direction", "statement": "Raising the temperature of a thermostat and raising that of one of its zones use the same direction of the command, and lowering the other one.", "quantifier": "every zone and amount", "why_tests_cant": "a unit test of either method alone accepts both directions", "anchors": ["devices/thermostat.go: IncreaseTemp, DecreaseTemp, IncreaseZoneTemp, DecreaseZoneTemp"]}
{"id": "C95", "title": "Setpoints apply to the zone given", "statement": "The setpoint methods that take a zone send a command for that zone.", "quantifier": "every zone and temperature", "why_tests_cant": "a test for one zone cannot tell that the zone is ignored", "anchors": ["devices/thermostat.go: SetCoolSetpoint, SetHeatSetpoint, SetZoneCoolSetpoint, SetZoneHeatSetpoint"]}
{"id": "C96", "title": "A failed load changes nothing", "statement": "If loading a database reports an error the database still has the content it had before.", "quantifier": "every database and every input", "why_tests_cant": "the set of malformed inputs is infinite", "anchors": ["util/database.go: Load, UnmarshalJSON, LoadDB"]}
{"id": "C97", "title": "Starting without a database file", "statement": "Creating a file database for a file that does not exist yet reports no error and gives an empty database; the first stored device creates the file.", "quantifier": "every device stored", "why_tests_cant": "holds for every device info; depends on the file system", "anchors": ["util/database.go: NewFileDB, LoadDB, Put"]}
{"id": "C98", "title": "The file follows the database", "statement": "Whenever a call on a file database that was loaded successfully reports no error, reading its file again gives exactly the current content, whatever calls and failed saves happened before.", "quantifier": "every sequence of Put and Open calls, every failure of opening or writing the file, three-byte addresses", "why_tests_cant": "histories and failure points are unbounded", "anchors": ["util/database.go: fileDB.Put, fileDB.Open, fileDB.save, SaveDB"]}
{"id": "C99", "title": "Nobody is left in linking mode", "statement": "After ForceLink or Unlink returns, with or without an error, no device is left waiting in linking or unlinking mode.", "quantifier": "all networks and fates of the calls", "why_tests_cant": "combinations of lost and unconfirmed calls", "anchors": ["util/link.go:ForceLink", "util/link.go:Unlink"]}
{"id": "C100", "title": "Adding links", "statement": "If AddLinks reports success every given link has been stored, first in the places of available records and then after the last record, and all other records are unchanged; if no write fails it reports success.", "quantifier": "all databases, all lists of links, all write outcomes, devices with and without single-record writes", "why_tests_cant": "unbounded lists and failure points", "anchors": ["util/link.go:AddLinks"]}
{"id": "C101", "title": "Filling in missing crosslinks", "statement": "The links computed by fixCrosslinks contain every missing crosslink.", "quantifier": "all lists and addresses", "why_tests_cant": "unbounded lists", "anchors": ["util/link.go:fixCrosslinks"]}
{"id": "C102", "title": "Repairing a stale half-link of the modem", "statement": "When the modem is the controller and only it has its half-link, Link fails with not-implemented before any linking session, because the modem can neither write single records nor update links.", "quantifier": "all databases with such a half-link, all responders", "why_tests_cant": "all databases and histories", "anchors": ["util/link.go:Link", "util/link.go:RemoveLinks", "plm/linkdb.go:UpdateLinks"]}
{"id": "C103", "title": "A written message is answered by its device", "statement": "Writing a message through an open PLM returns the first acknowledgement or refusal the addressed device sends, no matter what other traffic, noise or modem refusals (up to the retry count) are on the serial line, provided the modem's reply and the device's answer come before the timeouts and no more than ten messages pile up. The request is put on the line once per attempt, byte for byte; messages after the answer stay available.", "quantifier": "every message, unread backlog, interleaving of noise and frames on the serial line, number of refusals up to the retry count", "why_tests_cant": "the property joins byte framing, routing into two queues, retries and the wait for the answer; the interleavings of traffic, noise and refusals are unbounded", "anchors": ["plm/plm.go PLM.Write PLM.WritePacket PLM.Read readLoop", "plm/port.go packetReader retryWriter", " message.go"]}
{"id": "C104", "title": "The acknowledgement belongs to the message written", "statement": "The acknowledgement returned by writing a message was sent by the device in response to that message, not to an earlier one.", "quantifier": "every state of the queues and every later traffic", "why_tests_cant": "an old acknowledgement is only left over after particular timings of earlier calls", "anchors": ["plm/plm.go PLM.Write"]}
{"id": "C105", "title": "A late modem reply affects one call only", "statement": "If the modem's reply to a request comes after the timeout, only that call fails; later calls are matched with their own replies.", "quantifier": "every sequence of later messages with prompt replies", "why_tests_cant": "needs an unbounded sequence of calls after a particular timing", "anchors": ["plm/plm.go PLM.WritePacket PLM.ReadPacket readLoop"]}
{"id": "C106", "title": "Writing always returns and never sends anything else", "statement": "Whatever bytes come in on the serial line, every message written (and every command sent to a device) returns a result without a panic once the line falls silent, and what is put on the line is, for each message in order, between one and retries+1 exact copies of its request.", "quantifier": "every content and timing of the serial line, every sequence of messages", "why_tests_cant": "arbitrary garbage, truncated frames and unrelated replies cannot be enumerated", "anchors": ["plm/plm.go PLM.Write PLM.WritePacket", "plm/port.go", " devices/basic.go BasicDevice.SendCommand"]}
{"id": "C107", "title": "The modem's link database survives a busy serial line", "statement": "Reading the modem's links over a serial line returns exactly the modem's records in order, and rewriting them leaves exactly the given ones, whatever noise lies between frames, however many messages from the network arrive in between, and whatever other reports the modem sends with a record (at most eight; more can push the record out of the queue).", "quantifier": "every database size, noise, traffic and report interleaving the protocol allows", "why_tests_cant": "framing, routing, queue capacity and the enumeration protocol interact over an unbounded dialogue", "anchors": ["plm/linkdb.go linkdb.Links linkdb.WriteLinks", "plm/plm.go PLM.WritePacket PLM.ReadPacket readLoop", " plm/port.go packetReader"]}
{"id": "C108", "title": "Listening on a serial line reports every message once, in order", "statement": "Listening to both directions of a serial line, every message the modem passes on and every message the host asks to have sent is read exactly once; messages of the same direction are read in the order they were sent; nothing is dropped, whatever noise lies between frames and however the two streams and the reader are scheduled.", "quantifier": "every pair of streams, noise and schedule", "why_tests_cant": "three goroutines and a bounded channel: the interleavings cannot be enumerated", "anchors": ["plm/snoop.go Snoop snoop.Read readLoop", "plm/port.go packetReader"]}
{"id": "C109", "title": "Listening ends with an error when the line is gone", "statement": "When both streams have ended and every message has been read, a further read returns an error instead of waiting forever.", "quantifier": "every pair of streams and schedule", "why_tests_cant": "a read that never returns cannot be distinguished from a slow one by a test", "anchors": ["plm/snoop.go snoop.Read readLoop"]}
{"id": "C110", "title": "A command's text identifies the command", "statement": "Two different three-byte commands are never printed as the same text, so what a log or a monitor shows can be traced to one command.", "quantifier": "every pair of commands", "why_tests_cant": "all pairs out of 2^24 commands, over a table of names and two fallback forms", "anchors": ["commands/command.go Command.String", "commands/commands.go cmdStrings"]}
{"id": "C111", "title": "A modem command's text identifies it, a packet's hexadecimal text identifies the packet", "statement": "Different modem commands have different texts, and packets with the same %x text are equal in command, payload and acknowledgement byte.", "quantifier": "every pair of modem commands and of packets", "why_tests_cant": "payloads of any length", "anchors": ["plm/command_string.go Command.String", "plm/packet.go Packet.Format"]}
{"id": "C112", "title": "The text of message flags shows all of them", "statement": "Flags printed alike are equal: type, length class, hops left and maximum hops can all be read off the text.", "quantifier": "every pair of flag bytes", "why_tests_cant": "the padding and the eight types interact; needs all pairs", "anchors": ["message.go Flags.String MessageType.String"]}
{"id": "C113", "title": "A message's text identifies the message", "statement": "Two different messages from the network are never printed as the same text.", "quantifier": "every pair of messages decoded from the network", "why_tests_cant": "texts with parts of varying length can run into each other for particular values only", "anchors": ["message.go Message.String"]}
{"id": "C114", "title": "Watching messages does not change them", "statement": "Putting the snooping filter over a message writer changes neither any result nor what reaches the writer below, and prints exactly one line for every message read, written or returned as an acknowledgement, in order.", "quantifier": "every message writer, every sequence of reads and writes, every message and payload", "why_tests_cant": "the printed text depends on message contents and on the cache; one line break in an unusual payload would do", "anchors": ["util/snoop.go snoop.Read snoop.Write snoop.print Snoop"]}
{"id": "C115", "title": "An acknowledgement is shown with its request", "statement": "When a watched acknowledgement follows its request, it is shown with the command of that request.", "quantifier": "every history of messages", "why_tests_cant": "depends on all messages between the request and its acknowledgement", "anchors": ["util/snoop.go snoop.print", "devices/matcher.go MatchAck", "devices/filters.go CacheFilter.Lookup"]}
{"id": "C116", "title": "Thermostat information is what the thermostat said", "statement": "GetInfo asks for both data sets, in order; if it reports no error, both were received and every field is the one in the data set that carries it.", "quantifier": "every stream of incoming messages and every answer to the questions", "why_tests_cant": "which replies arrive, repeated or from whom, is arbitrary", "anchors": ["devices/thermostat.go Thermostat.GetInfo ThermostatInfo.UnmarshalBinary", "devices/basic.go BasicDevice.ExtendedGet"]}
{"id": "C117", "title": "A thermostat status report is complete or an error", "statement": "Status puts its eight questions in order and stops at the first that fails, whose error it reports; without an error every value is the one answered.", "quantifier": "every answer to every question and every stream of incoming messages", "why_tests_cant": "any of eight questions can fail, in any way", "anchors": ["devices/thermostat.go Thermostat.Status Thermostat.GetTempUnit Thermostat.GetMode Thermostat.GetEquipmentState Thermostat.GetZoneInfo"]}
{"id": "C118", "title": "Flags are read off their own bits", "statement": "Every operating flag of a switch and every equipment state of a thermostat is its own bit of the answer.", "quantifier": "all flag bytes", "why_tests_cant": "all values of all bytes", "anchors": ["devices/switch.go LightFlags", "devices/thermostat.go EquipmentState"]}
{"id": "C119", "title": "A command argument means the command it spells", "statement": "On the command line a command is written as two hex bytes, with or without a period between them; every such text is accepted and means these bytes, and nothing else is accepted.", "quantifier": "all texts", "why_tests_cant": "all texts, all bytes", "anchors": ["cmd/ic/vars.go cmdVar.Set"]}
{"id": "C120", "title": "Addresses on the command line", "statement": "Addresses given one after the other are all taken, in order, up to the first that is not an address, which is reported; a list of addresses printed and read again is the same list.", "quantifier": "all lists of texts, all lists of addresses", "why_tests_cant": "lists of any length and any texts", "anchors": ["util/vars.go Addresses.Set Addresses.String"]}
{"id": "C121", "title": "Data bytes on the command line", "statement": "Data given as hex bytes are taken, in order; anything that is not a hex byte is an error; printed data read again are the same.", "quantifier": "all lists of texts, all byte strings", "why_tests_cant": "any texts", "anchors": ["cmd/ic/vars.go dataVar.Set"]}
{"id": "C122", "title": "Setting or clearing a modem flag changes that flag only", "statement": "setflag and clearflag change the named flag of the modem's configuration and no other; with an unknown name, or if the configuration cannot be read, nothing is sent; the monitor command likewise only switches monitor mode on.", "quantifier": "all modem configurations, all flag names, all ways to fail", "why_tests_cant": "all configurations and failures", "anchors": ["cmd/ic/plm.go plmCmd.flagCmd", "cmd/ic/monitor.go monCmd"]}
{"id": "C123", "title": "The link command links every device named", "statement": "plm link, responder and crosslink link the modem with each of the devices named, and report a failure.", "quantifier": "all lists of addresses, all devices and all failures", "why_tests_cant": "any number of devices, any of which may fail", "anchors": ["cmd/ic/plm.go plmCmd.link"]}
{"id": "C124", "title": "The unlink command unlinks every device named", "statement": "plm unlink removes the links of the named group between the modem and each device named, or reports an error.", "quantifier": "all lists of addresses, all modems", "why_tests_cant": "any number of devices", "anchors": ["cmd/ic/plm.go plmCmd.unlinkCmd"]}
{"id": "C125", "title": "Editing links changes what was edited and nothing else", "statement": "When the link database of the modem is edited as text, the database afterwards has the records of the new text; records whose lines were left alone stay as they are; without a change, or if the text does not parse or the editor fails, nothing is changed.", "quantifier": "all databases, all edits, all modems that keep to the protocol", "why_tests_cant": "all texts, databases and answer schedules", "anchors": ["cmd/ic/device.go editLinks", "cmd/ic/plm.go plmCmd.editCmd", "plm/linkdb.go linkdb.WriteLinks linkdb.Links"]}
{"id": "C126", "title": "A failed edit loses nothing", "statement": "If editing the modem's links ends with an error, the database is as before.", "quantifier": "all databases, edits and failures", "why_tests_cant": "a modem can refuse at any point", "anchors": ["cmd/ic/device.go editLinks", "plm/linkdb.go linkdb.WriteLinks"]}
{"id": "C127", "title": "An anonymized file has the same links and none of the addresses", "statement": "anonymize keeps the records, in order, and the comments, and replaces each address by another, the same one wherever it occurs; none of the original addresses is left in the file.", "quantifier": "all link files, all random numbers", "why_tests_cant": "all files", "anchors": ["cmd/anonymize/main.go main", "util/link.go Anonymize"]}
{"id": "C128", "title": "The monitor shows every message until the port fails", "statement": "The monitor command goes on through quiet periods and prints every message that arrives, one line each in order, until the port fails.", "quantifier": "all sequences of messages and quiet periods, all device databases", "why_tests_cant": "arbitrarily long runs", "anchors": ["cmd/ic/monitor.go monCmd", "util/snoop.go snoop.Read", "plm/plm.go PLM.Read"]}
{"id": "C129", "title": "A device's link database is read completely over a busy serial line", "statement": "Asking a device for its links through a running PLM returns exactly the records the device transmits, in order, whatever noise and messages of other devices the serial line carries in between, as long as no more than ten messages wait at any time.", "quantifier": "all databases, all transmissions with copies, all traffic and noise on the line", "why_tests_cant": "line traffic and message timing are unbounded", "anchors": ["devices/linkdb.go linkdb.refresh linkdb.Links", "devices/matcher.go CmdMatcher", "plm/plm.go PLM.Read PLM.Write PLM.readLoop"]}
{"id": "C130", "title": "A link database is returned complete or not at all", "statement": "If messages are lost while a device transmits its link database, the read fails; links that are returned are all the links of the device.", "quantifier": "all databases, all losses, all copies", "why_tests_cant": "any record can be lost", "anchors": ["devices/linkdb.go linkdb.refresh linkdb.Links"]}
{"id": "C131", "title": "Rewriting a device's links over the serial line", "statement": "WriteLinks on a device behind a running PLM returns without an error exactly if each of its commands was carried out and acknowledged, possibly after refusals of the modem, whatever noise and messages of other devices the line carries; the device then holds the new links followed by an end record. If it returns an error, the slots before the failed command hold the new links and no other slot has changed, except that a command carried out without acknowledgement may have changed its slot.", "quantifier": "all devices and databases, all link lists, all sequences of refusals, rejections, lost requests, lost acknowledgements, noise and traffic with at most ten unread messages", "why_tests_cant": "line histories are unbounded", "anchors": ["devices/linkdb.go linkdb.WriteLinks linkdb.WriteLink", "devices/basic.go BasicDevice.Write", "plm/plm.go PLM.Write PLM.WritePacket PLM.readLoop", "plm/port.go retryWriter.WritePacket"]}
{"id": "C132", "title": "A rewrite over a busy line succeeds if every command gets through in the end", "statement": "If the device carries out and acknowledges what reaches it and the modem refuses no request more often than it is repeated, WriteLinks returns without an error and the device's database is exactly the given list, if the cached list was not longer.", "quantifier": "all link lists below 512 records, all such lines", "why_tests_cant": "line histories are unbounded", "anchors": ["devices/linkdb.go linkdb.WriteLinks", "plm/plm.go PLM.Write", "plm/port.go retryWriter.WritePacket"]}
{"id": "C133", "title": "A listener on the line passes bytes on unaltered", "statement": "While isnoop sits between a terminal and a modem, what comes out on either side is, at every moment, an initial part of what went in on the other side: no byte is changed, dropped, repeated or moved, whatever the bytes are, however they arrive in chunks and however its goroutines are scheduled.", "quantifier": "all byte streams from the modem and from the standard input, all chunk sizes and all schedules of the copying, listening and printing goroutines", "why_tests_cant": "The state is spread over five goroutines, two pipes and a channel; a test sees one schedule and one way the bytes are cut into chunks.", "anchors": ["cmd/isnoop/main.go main", "plm/snoop.go Snoop", "plm/snoop.go readLoop", "plm/port.go ReadPacket"]}
{"id": "C134", "title": "A listener on the line passes everything on and prints every message", "statement": "Everything the modem or the terminal sends through isnoop is passed on to the other side after a bounded number of steps, and one line is printed for each message, in the order of each direction.", "quantifier": "all byte streams from the modem and the standard input, all schedules", "why_tests_cant": "Whether five goroutines that block on each other can all come to a stop with bytes undelivered depends on the schedule and on the history of the channel; a test observes a finite part of one run.", "anchors": ["cmd/isnoop/main.go main", "plm/snoop.go Read", "plm/snoop.go readLoop", "util/snoop.go Read"]}
{"id": "C135", "title": "A dump of a link database identifies it", "statement": "The dump of a list of links has one line per link, in the order of the database, with the eight bytes of the record in hexadecimal; different lists with three-byte addresses have different dumps; if the links cannot be read nothing is written and the error is returned.", "quantifier": "all lists of link records; all devices", "why_tests_cant": "The dump is what a person compares and restores databases from; a test compares a few literal lists.", "anchors": ["util/link.go DumpLinks DumpLinkDatabase", "util/dumplinks.tmpl"]}
{"id": "C136", "title": "A printed link database shows every link, in order", "statement": "A printed link database has a heading and one line per link, ordered by address and then by group, whatever order of equal entries the sort picks; the lines read back as the links shown with the parser for link files; an empty list says so; if the links cannot be read nothing is written and the error is returned.", "quantifier": "all lists of link records with three-byte addresses, all sorting functions that keep sort.Sort's promise, all devices", "why_tests_cant": "The sort is not stable, so its result is not determined; a test sees one list and one version of the sorting function.", "anchors": ["util/link.go PrintLinks PrintLinkDatabase Links.Less", "util/printlinks.tmpl"]}
{"id": "C137", "title": "A device's text names the device", "statement": "The text of a device is its kind followed by its address; two devices whose texts are the same have the same address. The longer text also shows category, firmware and engine version.", "quantifier": "all devices: addresses, categories, firmware and engine versions", "why_tests_cant": "A test compares one text per kind of device, usually with the address zero, and so cannot see an address that is never filled in.", "anchors": ["devices/basic.go BasicDevice.String BasicDevice.Dump", "devices/switch.go Switch.String", "devices/dimmer.go Dimmer.String", "devices/thermostat.go Thermostat.String NewThermostat"]}
{"id": "C138", "title": "Thermostat values have names of their own", "statement": "Each documented mode, unit and fan speed is shown by its name, any other value by its number; no two values are shown alike; an equipment state is shown by the conditions that hold.", "quantifier": "all modes (bytes), units and fan speeds (64-bit integers) and equipment states (bytes)", "why_tests_cant": "The names are slices of one string by generated offsets, with a fallback for an unbounded range of values; a test samples a few.", "anchors": ["devices/thermostatmode_string.go ThermostatMode.String Unit.String FanSpeed.String", "devices/thermostat.go EquipmentState.String"]}
{"id": "C139", "title": "The printed thermostat information shows every reading", "statement": "Two thermostat informations that are printed alike have the same humidity, offsets, mode, fan mode, times, set points, limits, revision, conditions, temperature format and printed temperature.", "quantifier": "all pairs of thermostat informations whose numbers are 64-bit integers, all ways of printing the temperature on one line", "why_tests_cant": "That no reading is missing, printed twice in place of another or run together with its neighbour is a statement about all pairs of readings.", "anchors": ["devices/thermostat.go ThermostatInfo.String ThermostatInfo.UnmarshalBinary"]}
{"id": "C140", "title": "A device is linked only when the user says so, and then usable", "statement": "When a command opens a device that is linked, or fails for another reason, nothing is asked; if the device is not linked the user is asked once; on no, the error is returned and nothing is sent; on yes, one linking session makes the modem controller of the device for group 1, a failure of it is reported, and the command goes on with the device that was linked.", "quantifier": "all devices, databases, network behaviours, answers of the user and file faults", "why_tests_cant": "Which of the two attempts to open fails, and how, depends on the network; the linking session itself has many failure points; tests replace all of it.", "anchors": ["cmd/ic/main.go open", "util/link.go ForceLink"]}
{"id": "C141", "title": "Commands for a kind of device reach only that kind and send what they name", "statement": "The switch, dimmer and thermostat commands run only on devices whose category is that kind and report an error otherwise, without sending anything more; each control subcommand sends exactly the one command documented for it to the device opened.", "quantifier": "all devices, categories, subcommands, levels, ramps and network behaviours", "why_tests_cant": "There are as many categories as pairs of bytes and as many commands as levels; the subcommands are bound to method values when the program starts, which unit tests of the methods do not see.", "anchors": ["cmd/ic/switch.go swtch.init", "cmd/ic/dimmer.go dimmer.init", "cmd/ic/thermostat.go thermostat.init", "cmd/ic/device.go device.init"]}
{"id": "C142", "title": "Device commands send what they are given and show what is known", "statement": "The link, unlink, exit-link and send subcommands send exactly one command, with the group or the bytes given, and the extended send sends an extended message with exactly the data given; the version and information subcommands show the stored firmware version, address, engine, category and every link of the device, and the dump subcommand shows the bytes of every link.", "quantifier": "all devices, groups, commands, data of every length, link databases and network behaviours", "why_tests_cant": "The data, the group and the checksum share one buffer, and which bytes survive depends on the length of the data and on the engine of the device.", "anchors": ["cmd/ic/device.go device.esendCmd device.sendCmd device.versionCmd device.infoCmd device.dumpCmd printDevInfo"]}
{"id": "C143", "title": "Status commands show what the device answered and change nothing", "statement": "The status and configuration subcommands show every value the device answered, in the unit it uses, report an error if it did not answer, and only ask.", "quantifier": "all devices, answers and network behaviours", "why_tests_cant": "A status command that changes a setting or swallows an error prints the expected text in a test with a friendly device.", "anchors": ["cmd/ic/switch.go swtch.switchStatusCmd swtch.switchConfigCmd", "cmd/ic/dimmer.go dimmer.statusCmd dimmer.configCmd", "cmd/ic/thermostat.go thermostat.thermStatusCmd"]}
{"id": "C144", "title": "A walk visits every linked device once and only asks", "statement": "A walk that ends has visited every address among the modem's links exactly once, in order of first appearance, whatever happened at the other visits. What it notes about a device is what opening it and reading its links gave. It asks devices only for version, identification and links. Devices known before stay as they were; every device that could be opened is in the database afterwards and no device that could not; the file that was current before is current after. If the modem's links cannot be read no device is visited and the error is reported.", "quantifier": "all link databases of the modem with non-zero addresses, all database contents, all behaviours of the modem and the network", "why_tests_cant": "The order of failures over a network of devices, the duplicates in the link database and the content of the database before combine without bound.", "anchors": ["cmd/iwalk/main.go main", "plm/linkdb.go linkdb.IterateDevices", "util/database.go fileDB.Open"]}
{"id": "C145", "title": "A modem command returns in bounded time and does not give up early", "statement": "A command to the modem returns after at most one more than the number of retries times the timeout, the time a write takes and a second, whatever the modem answers and when; it reports a timeout only after nothing has come for the whole timeout.", "quantifier": "all settings, all times at which anything arrives or the port fails, all outcomes of ties between an arrival and the timer", "why_tests_cant": "Arrival times relative to the timer are not under the control of a test, and the worst case is a sum over attempts that each go differently.", "anchors": ["plm/plm.go PLM.WritePacket PLM.ReadPacket", "plm/port.go retryWriter.WritePacket"]}
{"id": "C146", "title": "Writing a message to a device returns in bounded time", "statement": "Writing a message returns within a time that depends only on the settings, not on what other devices do.", "quantifier": "all settings, all traffic by other devices", "why_tests_cant": "The traffic that keeps the call waiting is unbounded; a test has a quiet network.", "anchors": ["plm/plm.go PLM.Write PLM.Read"]}
{"id": "C147", "title": "The time options of a modem take effect", "statement": "The timeout given when a modem is opened is the time calls wait, the last one if there are several; the write delay given is kept between writes; a reset waits longer and leaves the timeout of later calls as it was.", "quantifier": "all lists of options, all sequences of calls", "why_tests_cant": "That an option is honoured is a statement about all later calls and their times; the tests of the options look at the field that is set.", "anchors": ["plm/options.go Timeout WriteDelay", "plm/plm.go New PLM.Reset"]}
{"id": "C148", "title": "A call made while others are under way is a call on a busy line", "statement": "What a call returns when other goroutines use the same modem is something it could have returned alone, with the actions of the modem and of the other goroutines happening between its own accesses to the port.", "quantifier": "all numbers of goroutines, all calls they make, all interleavings with each other and with arriving packets", "why_tests_cant": "The number of interleavings is unbounded; the race detector and stress tests see a few of them.", "anchors": ["plm/plm.go PLM.Write PLM.WritePacket PLM.ReadPacket PLM.Read PLM.readLoop", "plm/port.go retryWriter.WritePacket"]}
{"id": "C149", "title": "A packet from the modem goes to one caller only", "statement": "With several goroutines on one modem, every packet kept is handed to one of them at most, in the order of arrival for each of the two kinds, and no packet is handed out that did not arrive.", "quantifier": "all numbers of goroutines, all calls they make, all interleavings", "why_tests_cant": "It is a statement about all interleavings of all callers.", "anchors": ["plm/plm.go PLM.ReadPacket PLM.Read PLM.readLoop New"]}
{"id": "C150", "title": "Calls made at the same time get their own answers", "statement": "When several goroutines use one modem and the modem and the devices answer all of them, every call gets the answer to what it sent and reports success; a call that reports success was itself given the confirmation of its own packet and, for messages, an acknowledgement from its own device.", "quantifier": "all numbers of goroutines, all calls they make, all interleavings", "why_tests_cant": "It is a statement about all interleavings; the tests of the project make one call at a time.", "anchors": ["plm/plm.go PLM.Write PLM.WritePacket PLM.ReadPacket PLM.Read"]}
{"id": "C151", "title": "Calls made at the same time do not send more or block each other", "statement": "Whatever other goroutines do, a call writes its own packet only, at most one more time than the number of retries, and a command to the modem returns after a bounded number of its own steps.", "quantifier": "all numbers of goroutines, all calls they make, all interleavings, all failures of the port", "why_tests_cant": "It is a statement about all interleavings, and a deadlock shows only in some of them.", "anchors": ["plm/plm.go PLM.Write PLM.WritePacket PLM.Read", "plm/port.go retryWriter.WritePacket retry"]}
{"id": "C152", "title": "Commands to the modem are sent as documented", "statement": "Asking for the description or the configuration, setting the configuration, resetting, and entering or leaving the linking modes write the documented bytes of that command and nothing else: the linking modes once, the others as often as the retries allow. Calls that are not implemented write nothing and report an error.", "quantifier": "all commands and arguments, all numbers of retries, all answers and failures of the port", "why_tests_cant": "The bytes written depend on arguments and on every answer of the port during the retries; tests fix both.", "anchors": ["plm/plm.go PLM.Info PLM.Reset PLM.Config PLM.SetConfig PLM.SetDeviceCategory PLM.RFSleep", "plm/linkdb.go linkdb.EnterLinkingMode linkdb.ExitLinkingMode linkdb.EnterUnlinkingMode linkdb.UpdateLinks", "plm/port.go retryWriter.WritePacket"]}
{"id": "C153", "title": "A command to the modem succeeds exactly when the modem confirms it", "statement": "A command reports success only if the answer to the last frame written was the same command with a positive status and the same contents; it does report success if that is the first answer, and reports the refusal if the modem refuses every time.", "quantifier": "all commands and arguments, all numbers of retries, all answers and failures of the port", "why_tests_cant": "Success must not be reported for any of the infinitely many sequences of answers that lack the confirmation.", "anchors": ["plm/plm.go PLM.Info PLM.Reset PLM.Config PLM.SetConfig PLM.WritePacket", "plm/linkdb.go linkdb.EnterLinkingMode linkdb.ExitLinkingMode linkdb.EnterUnlinkingMode"]}
{"id": "C154", "title": "What the library says about the modem is what the modem said", "statement": "The description and the configuration returned are the bytes the modem answered, and with a modem that keeps to the protocol asking for the description returns or reports an error. The address given for the modem is the one it reported; once known it is given without asking again.", "quantifier": "all modems and answers, all histories of calls", "why_tests_cant": "The address is cached, so what a call returns depends on the history; a description must be right for all contents.", "anchors": ["plm/plm.go PLM.Info PLM.Config PLM.Address PLM.String", "plm/info.go Info.UnmarshalBinary"]}
{"id": "C155", "title": "The modem info command shows what the modem said", "statement": "`ic plm info` prints address, category, firmware, configuration and links as the modem reports them; from the first question that fails nothing more is printed, and its error is reported.", "quantifier": "all modems, answers and failures, all link databases", "why_tests_cant": "The output is a function of unbounded answers; every failure point gives another output.", "anchors": ["cmd/ic/plm.go plmCmd.infoCmd", "util/link.go PrintLinkDatabase PrintLinks", "plm/config.go Config.String"]}
{"id": "C156", "title": "Descriptions of the modem and requests to it survive the wire", "statement": "A description of a modem, a request to change a record and a request to start linking are read back as they were written; six bytes read as a description are written back the same; different descriptions are printed differently.", "quantifier": "all descriptions, requests and byte strings", "why_tests_cant": "The round trip ranges over all field values.", "anchors": ["plm/info.go Info.MarshalBinary Info.UnmarshalBinary Info.String Version.String", "plm/linkdb.go manageRecordRequest.MarshalBinary manageRecordRequest.UnmarshalBinary allLinkReq.MarshalBinary allLinkReq.UnmarshalBinary"]}
{"id": "C157", "title": "What holds for a call alone holds for it among others", "statement": "Whatever is guaranteed about the result of a call for every behaviour of the line is still guaranteed when other goroutines use the same modem in any way at the same time: commands, reading, sending messages, and reading, listing or writing the modem's links.", "quantifier": "all programs the goroutines run, any number of them, all interleavings with each other and with arriving packets", "why_tests_cant": "The other goroutines may run any program, and the interleavings are unbounded.", "anchors": ["plm/plm.go PLM.Write PLM.WritePacket PLM.ReadPacket PLM.Read PLM.Info PLM.Config PLM.SetConfig PLM.Address", "plm/linkdb.go linkdb.Links linkdb.WriteLinks linkdb.IterateDevices", "plm/port.go retryWriter.WritePacket"]}
{"id": "C158", "title": "Goroutines that read the modem's links at once all get the whole list", "statement": "When several goroutines read the links of the modem at the same time, each one that gets no error gets all links of the modem, and only those.", "quantifier": "all databases, all interleavings of the readers and of whatever else uses the modem", "why_tests_cant": "The modem keeps one position for all readers; whether a record is missed depends on the interleaving.", "anchors": ["plm/linkdb.go linkdb.Links linkdb.refresh", "plm/plm.go PLM.ReadPacket PLM.WritePacket"]}
{"id": "C159", "title": "Resetting the modem leaves the timeout as it was", "statement": "When all resets of the modem are over, the time calls wait for answers is what it was before them.", "quantifier": "all numbers of goroutines and of resets, all interleavings", "why_tests_cant": "The timeout is saved and restored without a lock, so what is left depends on the interleaving.", "anchors": ["plm/plm.go PLM.Reset"]}
{"id": "C160", "title": "A command to a device is carried out at most once", "statement": "A call that sends a command to a device makes the device carry it out at most once, however often the frame is sent again, and exactly once if the call reports success. The modem does not hand on what it refuses, and devices acknowledge only what they carried out.", "quantifier": "all commands, all behaviours of modem, devices and line, all numbers of retries", "why_tests_cant": "Frames, replies and answers may be lost, refused or late in any combination; tests run against one script of replies.", "anchors": ["plm/plm.go PLM.Write PLM.WritePacket PLM.Read", "plm/port.go retryWriter.WritePacket", "devices/basic.go BasicDevice.Send BasicDevice.SendCommand", "devices/dimmer.go Dimmer.Brighten"]}
{"id": "C161", "title": "A history of commands is carried out in order", "statement": "On a line on which nothing is late and nothing comes twice, commands sent one after the other are carried out in the order of the calls and each at most once; those whose calls report success are carried out, those whose calls report a refusal by the modem or the device are not. Everything may be lost or refused, and other messages may come at any time.", "quantifier": "all lists of commands to any devices, all such lines, all numbers of retries", "why_tests_cant": "It is about every history of calls and losses, of any length.", "anchors": ["plm/plm.go PLM.Write PLM.WritePacket PLM.Read", "plm/port.go retryWriter.WritePacket"]}
{"id": "C162", "title": "Logging changes nothing and shows everything", "statement": "Whatever program uses the port gets the same results through the logging reader and writer, and the port gets the same; and the debug log has a line for every piece of traffic, in order, from which the bytes can be told.", "quantifier": "all ports, all programs that use them, all lengths of their runs", "why_tests_cant": "It holds for every port and every use of it.", "anchors": ["plm/port.go logReader.Read logWriter.Write", "plm/plm.go hexDump New"]}
{"id": "C163", "title": "The quiet option silences ic", "statement": "With the option to log nothing ic writes no log at all, and without the option for debug logs no debug logs.", "quantifier": "all command lines", "why_tests_cant": "The flags combine, and later ones override earlier ones.", "anchors": ["cmd/ic/main.go init run", "devices/logging.go Log LogDebug"]}
{"id": "C164", "title": "Reading with a timeout gives a message or a timeout error", "statement": "ReadWithTimeout returns the next message of the channel as soon as it is there, or the timeout error when the time is over, and in that case takes nothing from the channel.", "quantifier": "all channels, arrival times and timeouts, both choices when message and timer are ready at once", "why_tests_cant": "It depends on arrival times, and a select may choose either case.", "anchors": ["util.go ReadWithTimeout"]}
{"id": "C165", "title": "Lists and buffers passed to a device can be used again", "statement": "After WriteLinks, UpdateLinks and AddLinks the list of links the caller passed still says what it said, and after a command was sent the caller's payload buffer still holds what it held, so that either can be passed to another call, with the effect a fresh copy would have.", "quantifier": "all lists of links, all buffers, all devices and connections, all calls that succeed or fail", "why_tests_cant": "The lists and buffers share their memory with the caller, and what is overwritten depends on the records of the device and on the length of the buffer.", "anchors": ["devices/linkdb.go linkdb.writeLinks linkdb.UpdateLinks linkdb.AddLinks linkdb.WriteLinks", "devices/basic.go BasicDevice.SendCommand", "devices/util.go setChecksum"]}
{"id": "C166", "title": "Debug logs change nothing that is sent", "statement": "Linking and unlinking send the same and end the same whether or not debug logs are written.", "quantifier": "all devices, all behaviours of them, all groups", "why_tests_cant": "Formatting an argument of a log line calls its String method, and what that does depends on the kind of device and on its state.", "anchors": ["util/link.go ForceLink Link CrossLink Unlink UnlinkAll", "plm/plm.go PLM.String PLM.Address"]}
{"id": "C167", "title": "An interrupted rewrite of the modem's links loses records only at one end", "statement": "When rewriting the modem's link database fails part of the way because commands are refused, lost or unanswered, WriteLinks returns an error, and the database holds either the old records without the first few of them or the first few of the new links; it succeeds whenever nothing is lost and no command is refused more than three times in a row.", "quantifier": "all databases, all lists of links the modem can tell apart, all sequences of refused, lost, unanswered and unsendable commands", "why_tests_cant": "What is left depends on which of the many commands met which fate; tests try a few.", "anchors": ["plm/linkdb.go linkdb.WriteLinks linkdb.deleteLink linkdb.writeLink", "plm/port.go retryWriter.WritePacket", "plm/plm.go PLM.WritePacket"]}
{"id": "C168", "title": "A failed rewrite of the modem's links can be made good", "statement": "After WriteLinks failed because of the line, calling WriteLinks once the line works again leaves exactly the given links in the modem.", "quantifier": "all databases, all lists of links, all fates of the commands of the first attempt, any number of further attempts", "why_tests_cant": "The second attempt depends on what the first one left in the modem and on what the program believes is there.", "anchors": ["plm/linkdb.go linkdb.WriteLinks linkdb.deleteLink linkdb.Links", "plm/port.go retryWriter.WritePacket"]}
{"id": "C169", "title": "Reading the modem's links on an unreliable line is complete or fails", "statement": "Whatever commands are refused, lost, cut off or unsendable while the modem's link database is read, Links returns all the records of the modem or an error together with the links known before.", "quantifier": "all databases, unrelated packets in between, retry counts, all sequences of fates of the commands", "why_tests_cant": "The end of the database and a refusal look the same on the line, so the result depends on where in the sequence a refusal comes.", "anchors": ["plm/linkdb.go linkdb.refresh linkdb.Links", "plm/port.go retryWriter.WritePacket", "plm/plm.go PLM.WritePacket PLM.ReadPacket"]}
{"id": "C170", "title": "A failed rewrite of a device's links can be repeated until it succeeds", "statement": "After any number of attempts to rewrite a device's links, failed or not, a WriteLinks that returns no error has stored its links from the first slot on and nothing beyond the longest list involved; when no earlier list and no list read before was longer, the device then holds exactly the given links. Repeating the same list succeeds after at most as many failures as the line still has mishaps in store.", "quantifier": "all devices, all lists of links that fit into a device's memory (fewer than 512, none looking like the end of the list), all sequences of lost and refused messages, any number of earlier attempts", "why_tests_cant": "What an attempt leaves in the device and in the program depends on where it was cut off, and later attempts start from there.", "anchors": ["devices/linkdb.go linkdb.WriteLinks linkdb.WriteLink"]}
{"id": "C171", "title": "Editing the modem's links on an unreliable line loses no record the editor did not show", "statement": "Whatever commands are refused, lost or unanswered while the modem's links are edited as text, the records the editor did not show stay in the modem; those shown stay too when the text is unchanged or has a mistake or the editor fails; otherwise either all the edited links are stored, or an error is returned and the first few of the shown records are gone or only the first few of the edited links are stored. All records are shown when nothing is refused and no error is returned.", "quantifier": "all databases, editors, retry counts and sequences of fates of the commands; edited links the modem can tell apart", "why_tests_cant": "The outcome depends on the fate of each of the commands of reading, deleting and writing; tests try a few.", "anchors": ["cmd/ic/device.go editLinks", "cmd/ic/plm.go plmCmd.editCmd", "plm/linkdb.go linkdb.Links linkdb.WriteLinks"]}
{"id": "C172", "title": "After editing a device's links as text the device holds the links of the text", "statement": "When the device edit command returns no error and the text was changed, the device holds exactly the links of the edited text; when the text is unchanged or has a mistake, or the editor fails, the device's memory is unchanged.", "quantifier": "all devices with fewer than 512 links, editors, sequences of fates of the written records", "why_tests_cant": "The rewrite places records by the number of links read before, so the outcome depends on both lists and on every message in between.", "anchors": ["cmd/ic/device.go editLinks", "cmd/ic/device.go device.editCmd", "devices/linkdb.go linkdb.Links linkdb.WriteLinks linkdb.WriteLink"]}
{"id": "C173", "title": "Delayed writes leave the network the time it needs", "statement": "A writer with delays starts a write that follows a message only after the packet read last has had the time it needs for its length and its hops, and not before the least delay set.", "quantifier": "all packets, hop counts, lengths, delays set and clocks", "why_tests_cant": "The delay is computed from two readings of the clock, the time of the last packet and its length; tests cannot try all times.", "anchors": ["plm/port.go delayWriter.ReadPacket delayWriter.writeDelay delayWriter.Write"]}
{"id": "C174", "title": "Group numbers given as flags", "statement": "A group given as a command line flag is accepted exactly if it is the text of a number from 0 to 255, and is that number; text that is not accepted leaves the group as it was, and the text of a group is read back as that group.", "quantifier": "all texts and groups", "why_tests_cant": "Acceptance is a statement about every text: leading blanks, signs, overlong numbers, trailing text.", "anchors": ["link.go Group.Set Group.String"]}
{"id": "C175", "title": "Printing links does not change them", "statement": "Printing a list of links leaves the list passed to the call as it was.", "quantifier": "all lists of links, whatever sorting function is used", "why_tests_cant": "Depends on the order of the list; a test with a sorted list does not see it.", "anchors": ["util/link.go PrintLinks"]}
{"id": "C176", "title": "Packets and requests shown in logs can be told apart", "statement": "The text of a packet identifies its command and whether the modem accepted or refused it; the long form identifies all bytes of its payload, too. The text of a request to change a link record identifies the request and the record's role, use, group, address and data; the text of a request to start linking identifies mode and group.", "quantifier": "all pairs of packets and requests", "why_tests_cant": "Names of commands contain spaces and end in letters that are hexadecimal digits; that no two of all texts coincide is a statement about all pairs.", "anchors": ["plm/packet.go Packet.String Packet.Format", "plm/linkdb.go manageRecordRequest.String allLinkReq.String"]}
{"id": "C177", "title": "The modem is reset only when the user says so", "statement": "`ic plm reset` writes nothing unless the question is answered with y; then it writes the reset command and nothing else, and reports success only if the modem confirmed it.", "quantifier": "all modems and answers", "why_tests_cant": "What the modem answers, and how often the command is repeated, is arbitrary.", "anchors": ["cmd/ic/plm.go plmCmd.resetCmd", "plm/plm.go PLM.Reset"]}
{"id": "C178", "title": "A new link is what it is called", "statement": "A link made for a controller or a responder is in use, has that role, is not an end record, names the group and the address given and carries no data; it survives its wire form and its text form unchanged.", "quantifier": "all groups and addresses", "why_tests_cant": "A statement about all groups and addresses.", "anchors": ["link.go ControllerLink ResponderLink"]}
{"id": "C179", "title": "A refusal is reported with the reason the device gave", "statement": "When a device refuses a command the error tells the reason in its answer: not linked, no load, wrong checksum or unknown command, illegal value.", "quantifier": "all devices, commands and refusals", "why_tests_cant": "The reason depends on the answer and on the engine of the device; all codes for both engines.", "anchors": ["devices/basic.go BasicDevice.errLookup BasicDevice.Send"]}
{"id": "C180", "title": "A database file is read as what it says", "statement": "A text is loaded without error exactly if it is JSON and either null or an object whose keys are texts of addresses and whose values are null or objects in which the fields address, devCat, firmwareVersion and engineVersion, in any order and any case of letters, are the text of an address, the text of a category and whole numbers of 64 bits (or null); other fields are skipped, missing ones are zero, later entries replace earlier ones. The content is then exactly the one the text says, whatever was known before, and what is saved is such a text.", "quantifier": "all texts, and all databases they are loaded into", "why_tests_cant": "The claim is about all texts: nesting, escapes, blanks, invalid UTF-8, repeated and misspelt names.", "anchors": ["util/database.go memDB.Load memDB.UnmarshalJSON memDB.Save", "address.go Address.UnmarshalJSON", "insteon.go DevCat.UnmarshalJSON", "devices/device.go DeviceInfo"]}
{"id": "C181", "title": "A database that was loaded can be used", "statement": "After a database has been loaded without error devices can be stored in it: no history of storing, saving and loading panics.", "quantifier": "all histories of calls and all texts loaded", "why_tests_cant": "Whether storing works depends on the text that was loaded last; all histories.", "anchors": ["util/database.go memDB.Put memDB.Load memDB.UnmarshalJSON fileDB.Put NewFileDB"]}
{"id": "C182", "title": "What one run learns the next one knows", "statement": "When ic and iwalk are run one after the other on a database file, every run starts, knows at its beginning exactly the devices the run before knew at its end, and never forgets or changes what it knew; the file they leave says what the last one knew.", "quantifier": "all sequences of runs, with any devices opened in each and any answers from the network, on any file that is a database", "why_tests_cant": "A statement about all histories of programs, each with its own calls.", "anchors": ["util/database.go NewFileDB fileDB.Open fileDB.save SaveDB LoadDB", "cmd/ic/main.go run open", "cmd/iwalk/main.go main"]}
{"id": "C183", "title": "A damaged database file is left alone", "statement": "If the database file is not a database, for example because it was cut short, no run of ic or iwalk changes it: every run ends with an error before it does anything.", "quantifier": "all texts that are not databases and all sequences of runs", "why_tests_cant": "All damaged files and all histories.", "anchors": ["util/database.go NewFileDB LoadDB", "cmd/ic/main.go run", "cmd/iwalk/main.go main"]}
{"id": "C184", "title": "The programs can be used for the first time without preparation", "statement": "On a machine where no database file exists ic and iwalk can be started, and devices they open are remembered.", "quantifier": "all sequences of runs starting without a file", "why_tests_cant": "Whether any sequence of runs ever creates the file is a statement about all histories.", "anchors": ["util/database.go NewFileDB LoadDB", "cmd/ic/main.go run", "cmd/iwalk/main.go main"]}
{"id": "C185", "title": "Programs used at the same time keep what each of them learns", "statement": "When two programs use the same database file at the same time, afterwards the file is a database and says what both of them know.", "quantifier": "all interleavings of the calls of two programs", "why_tests_cant": "The interleavings of two processes cannot be enumerated by tests.", "anchors": ["util/database.go NewFileDB fileDB.Open fileDB.save SaveDB"]}
{"id": "C186", "title": "Killing a program costs at most what it was saving", "statement": "Programs that use the database file may be killed at any moment, also while they write the file. Each later run starts and knows at its beginning what the run before knew at its end, or, if that one was killed, what it knew before or after the call it was killed in; no run is ever told anything no run has learnt.", "quantifier": "all sequences of runs with any calls and answers, each ending by itself or killed at any point of any call", "why_tests_cant": "All crash points of all histories.", "anchors": ["util/database.go NewFileDB fileDB.Open fileDB.save SaveDB LoadDB", "cmd/ic/main.go run", "cmd/iwalk/main.go main"]}
{"id": "C187", "title": "A failing port is noticed", "statement": "When reading the serial port fails, everything that arrived completely before the failure is delivered, in order, and nothing else; reading then ends with the port's own error, which is logged unless it is the end of the file.", "quantifier": "all sequences of packets and noise, all points at which the port fails, all errors, transient or lasting", "why_tests_cant": "The failure can come between any two bytes of any stream.", "anchors": ["plm/port.go packetReader.sync packetReader.read packetReader.ReadPacket", "plm/plm.go PLM.readLoop", "plm/snoop.go snoop.readLoop"]}
{"id": "C188", "title": "The temperature shown is the one measured", "statement": "After a thermostat's first data set has been decoded, the text of its information starts with the measured temperature in the thermostat's own unit, to the nearest tenth of a degree: rounding in the float32 arithmetic and in printing never changes a digit. Two informations shown alike come from the same measurement.", "quantifier": "all data sets (all 65536 temperatures in both units), whatever was decoded before", "why_tests_cant": "There are 65536 temperatures in two units, each rounded up to four times; a test looks at a few of them.", "anchors": ["devices/thermostat.go ThermostatInfo.UnmarshalBinary ThermostatInfo.String"]}
{"id": "C189", "title": "A device is opened over a busy serial line", "statement": "When a device is opened through a running PLM whose modem accepts the two questions (perhaps after refusals up to the retry count) and whose device acknowledges both and announces itself, the open returns a device with the address asked for, the engine version of the first acknowledgement and the category and firmware announced, whatever old messages, messages of other devices and noise come in between. The two questions are all that is sent, and what came after the announcement can still be read. A device that refuses the first question because it is not linked is returned with the error that says so and nothing more is asked.", "quantifier": "all addresses, all contents of the line between, before and after the answers with no more messages in one portion than the inbox holds, all numbers of refusals up to the retry count, all answers", "why_tests_cant": "The bytes between the questions and the answers have no bound, and each byte can be noise, part of another device's message or of the answer.", "anchors": ["devices/device.go Open", "devices/connection.go GetEngineVersion IDRequest Read", "plm/plm.go PLM.Read PLM.Write PLM.WritePacket"]}
{"id": "C190", "title": "A failing port or terminal is noticed by isnoop", "statement": "When reading or writing the serial port, the standard input or the standard output fails, isnoop says so and ends. What it passed on until then is the beginning of what went in, unaltered, and what it printed is the messages seen, each side's in order.", "quantifier": "all inputs on both sides, all schedules of the goroutines, all points of failure on either side", "why_tests_cant": "Failures come at any point of any interleaving of four goroutines; unplugging the modem is not something a unit test does.", "anchors": ["cmd/isnoop/main.go main", "plm/snoop.go Snoop"]}
{"id": "C191", "title": "Linking gives the devices time", "statement": "When two devices are linked or unlinked by remote button presses, no message is sent to a device before 1.43 s (half a second and the time fourteen bytes need with three hops) have passed since a device acknowledged that it entered linking or unlinking mode. If a device refuses there is no wait. The whole call takes at most four exchanges and two such pauses; without an error it has told the controller and the responder to start and both to stop, in that order.", "quantifier": "all controllers and responders (devices or the modem), all engine versions, groups and answers, all durations of the exchanges and of oversleeping", "why_tests_cant": "How long an exchange takes and what is answered is up to the devices; the unit test sets the wait to zero.", "anchors": ["devices/basic.go LinkingModeWaitTime BasicDevice.EnterLinkingMode BasicDevice.EnterUnlinkingMode BasicDevice.ExitLinkingMode", "util/link.go ForceLink Unlink", "plm/linkdb.go linkdb.EnterLinkingMode"]}
{"id": "C192", "title": "Commands are shown as documented", "statement": "The command of every message received is shown under the name COMMANDS.md gives to that kind of message and these two command bytes (the dimmer convenience commands, which it does not list, under the name in the constants' comments). If only the command with second byte 0 has a name, that name is shown with the second byte in parentheses; otherwise the three bytes are shown in hexadecimal. Acknowledgements and refusals of direct messages are named like the messages themselves, and the hop counts make no difference.", "quantifier": "all messages: all 256 flag bytes, all pairs of command bytes", "why_tests_cant": "16.7 million combinations of flags and command bytes against a table of a hundred rows; tests look at a few.", "anchors": ["commands/command.go From Command.String", "commands/commands.go cmdStrings", "message.go Message.UnmarshalBinary", "COMMANDS.md"]}
{"id": "C193", "title": "Calls on devices return", "statement": "Whatever bytes arrive on the serial line, in whatever portions, and whichever writes to the port fail, every call on a device (opening it, asking for its version, status, configuration or links, sending it commands, changing its links) returns with a result or an error once the line is silent: none crashes the program and none waits for ever. This holds for any sequence of calls on any devices, after whatever the calls before did.", "quantifier": "all byte sequences on the line and all ways they are split up among the calls, all retry counts, all sequences of the 53 device calls with all arguments, all patterns of failing writes", "why_tests_cant": "The inputs are all byte streams times all sequences of calls; a nil dereference or an endless loop hides in one combination.", "anchors": ["devices/device.go Open", "devices/connection.go Read IDRequest GetEngineVersion", "devices/basic.go BasicDevice.Send BasicDevice.ProductData BasicDevice.ExtendedGet", "devices/linkdb.go linkdb.refresh linkdb.Links linkdb.WriteLink linkdb.WriteLinks linkdb.UpdateLinks linkdb.AddLinks LinkRequest.UnmarshalBinary", "devices/switch.go Switch.Config Switch.OperatingFlags", "devices/dimmer.go Dimmer.Config", "devices/thermostat.go Thermostat.Status Thermostat.GetInfo", "plm/plm.go PLM.Read PLM.Write PLM.WritePacket"]}
{"id": "C194", "title": "Waiting for an answer ends", "statement": "A call that waits for a certain message (an acknowledgement, the next link record, an identification) ends within a time given by the settings.", "quantifier": "all arrival times of all messages, all timeouts, all messages waited for, downloads of any number of records", "why_tests_cant": "Depends on the arrival times of an unbounded number of messages of other devices.", "anchors": ["devices/connection.go Read", "devices/linkdb.go linkdb.refresh", "plm/plm.go PLM.Read PLM.Write"]}
{"id": "C195", "title": "Calls on the modem return", "statement": "Whatever bytes arrive on the serial line, in whatever portions, and whichever writes to the port fail, every call on the modem (asking for its information, address, configuration or links, reading a packet, resetting it, setting its category or configuration, entering and leaving linking mode, adding, deleting and rewriting links, listing the devices linked) returns with a result or an error once the line is silent: none crashes the program and none waits for ever. This holds for any sequence of calls, also mixed with calls on devices.", "quantifier": "all byte sequences on the line and all ways they are split up among the calls, all retry counts, all sequences of calls on the modem and on devices with all arguments, all patterns of failing writes", "why_tests_cant": "The inputs are all byte streams times all sequences of calls; a nil dereference or an endless retry hides in one combination.", "anchors": ["plm/plm.go PLM.WritePacket PLM.ReadPacket PLM.Info PLM.Address PLM.Reset PLM.Config PLM.SetConfig PLM.SetDeviceCategory", "plm/linkdb.go linkdb.Links linkdb.WriteLinks linkdb.refresh linkdb.IterateDevices linkdb.EnterLinkingMode linkdb.ExitLinkingMode"]}
{"id": "C196", "title": "A walk over the devices ends and leaves none out", "statement": "iwalk ends once the serial line is silent, whatever it brought and whichever writes to it failed, and has tried every device that the modem named: a device that cannot be opened or whose links cannot be read, or a database file that cannot be written, does not keep it from the next one.", "quantifier": "all byte sequences on the line, all retry counts, all databases and file faults, any number of devices, all patterns of failing writes", "why_tests_cant": "Each of any number of devices may fail in its own way at its own time, and the next must still be tried.", "anchors": ["cmd/iwalk/main.go main", "plm/linkdb.go linkdb.IterateDevices", "util/database.go fileDB.Open fileDB.Put memDB.Put", "devices/linkdb.go linkdb.Links"]}
{"id": "C197", "title": "The commands of ic for a device end", "statement": "Whatever bytes arrive on the serial line and whichever writes to the port fail, each command of `ic device`, `ic switch`, `ic dimmer` and `ic thermostat` ends once the line is silent, with what it prints or with an error, and never by a crash. This holds also when the user is asked whether to link a device that is not linked, whatever the answer.", "quantifier": "all byte sequences on the line, all retry counts, all databases and file faults, all addresses, all commands with all arguments, all editors, all patterns of failing writes, all answers to the question, all bytes arriving during the pauses of linking", "why_tests_cant": "The inputs are all byte streams, databases and commands; a crash hides in one combination.", "anchors": ["cmd/ic/main.go open", "cmd/ic/device.go device.init device.infoCmd device.dumpCmd device.editCmd printDevInfo editLinks", "cmd/ic/switch.go swtch.init swtch.switchConfigCmd swtch.switchStatusCmd", "cmd/ic/dimmer.go dimmer.init dimmer.configCmd dimmer.statusCmd", "cmd/ic/thermostat.go thermostat.init thermostat.thermStatusCmd"]}
{"id": "C198", "title": "A call on a device ends with the first failure and reports it", "statement": "When a message cannot be sent or received in the middle of a call on a device, the call ends: nothing more is sent or received, and the caller gets that very error. So a call that returns no error met with none on the way. (A refusal to tell the engine version may be reported as what it means: not linked.)", "quantifier": "all message writers whatsoever, so all places where a failure can happen and all errors; all calls on devices, switches, dimmers and thermostats with all arguments; all devices", "why_tests_cant": "A failure can strike at every exchange of every call, with every error; a test fails one exchange of one call.", "anchors": ["devices/basic.go BasicDevice.SendCommand BasicDevice.Send BasicDevice.ProductData BasicDevice.ExtendedGet", "devices/linkdb.go linkdb.refresh linkdb.WriteLink linkdb.WriteLinks linkdb.UpdateLinks linkdb.AddLinks", "devices/device.go Open", "devices/thermostat.go Thermostat.Status Thermostat.GetInfo Thermostat.GetZoneInfo", "devices/switch.go Switch.OperatingFlags Switch.Config", "devices/dimmer.go Dimmer.Config"]}
{"id": "C199", "title": "A call on a device talks to that device only, in its own words, and no longer than it has to", "statement": "Whatever answers or errors come back, each call on a device sends messages to that device and to no other, uses the commands documented for the call and no others, and sends no more messages than the call needs (one for a single command, four for the information about a zone, eight for the status of a thermostat, one per link and one for the end when links are written, ...). The calls that only ask send nothing but questions, so they change nothing.", "quantifier": "all message writers whatsoever, so all answers, errors and panics at every exchange; all calls on devices, switches, dimmers and thermostats with all arguments; all devices and engine versions", "why_tests_cant": "What a call sends can depend on every answer it gets, and on its arguments; a test plays one sequence of answers.", "anchors": ["devices/basic.go BasicDevice.Write BasicDevice.SendCommand BasicDevice.ExtendedGet", "devices/linkdb.go linkdb.refresh linkdb.WriteLinks linkdb.UpdateLinks linkdb.AddLinks", "devices/connection.go GetEngineVersion IDRequest", "devices/thermostat.go Thermostat.Status Thermostat.GetInfo Thermostat.GetZoneInfo", "devices/switch.go Switch.OperatingFlags", "devices/dimmer.go Dimmer.OnAtRamp Dimmer.OffAtRamp"]}
{"id": "C200", "title": "Linking over the serial line makes the links and leaves the program in step with the modem", "statement": "With a modem on the serial line and devices behind it, linking (or unlinking) two of them, when nothing is waiting to be read and nobody is in linking mode, succeeds and makes (or deletes) exactly the two half-links of the group. Crosslinking makes both links. Afterwards the program is in step with the modem: the next call gets its own answer. (This is not so with a modem that reports finished links when it is one of the two: crosslinking always fails half way and leaves the device in linking mode, and the call after linking always fails with a wrong acknowledgement.)", "quantifier": "all networks with any databases, all groups, all pairs of modem and devices of any engine version, all numbers of retries; modems that report finished links and modems that do not; all calls that ask or tell the modem something afterwards", "why_tests_cant": "The links, the engine versions and the unsolicited report of the modem meet only in a whole exchange of bytes; the tests of linking use fakes that send no report.", "anchors": ["util/link.go ForceLink Unlink", "cmd/ic/plm.go plmCmd.link", "devices/basic.go BasicDevice.EnterLinkingMode BasicDevice.EnterUnlinkingMode BasicDevice.ExitLinkingMode", "plm/linkdb.go linkdb.EnterLinkingMode linkdb.EnterUnlinkingMode linkdb.ExitLinkingMode", "plm/plm.go PLM.WritePacket PLM.Write"]}
{"id": "C201", "title": "The commands of ic for the modem end", "statement": "Whatever bytes the serial line brings, in whatever portions, and whichever writes to the port fail, each command of ic plm (setflag, clearflag, edit, info, reset, link controller, link responder, crosslink, unlink, alllink) ends once the line is silent: with an error or without, never by a crash and never by waiting for ever. This holds for any number of devices to link, known or unknown, linked or not, and with a database file that cannot be written. (It does not hold if the database file contains null.)", "quantifier": "all sequences of portions of bytes on the line, all commands with all arguments, all answers and editors of the user, all databases, file faults, numbers of retries, and bytes arriving while the program sleeps, all patterns of failing writes", "why_tests_cant": "A test can play a few transcripts; a device that does not exist, a stray byte or a lost acknowledgement at any place of a long exchange cannot be enumerated.", "anchors": ["cmd/ic/plm.go plmCmd.link plmCmd.editCmd plmCmd.infoCmd plmCmd.resetCmd plmCmd.flagCmd plmCmd.unlinkCmd", "cmd/ic/main.go open", "cmd/ic/device.go editLinks", "util/link.go ForceLink", "util/database.go fileDB.Open"]}
{"id": "C202", "title": "A command of ic that failed says so", "statement": "When reading or writing a message fails while ic carries out a command for a device, the command ends there: nothing more is exchanged, ic reports that failure and exits with a status other than 0. So an exit status of 0 means that every exchange with the device succeeded. (This is not so for ic dimmer config, which goes on and exits with 0, and ic device edit reports that there are no links when they could not be read.)", "quantifier": "all commands of ic for devices, switches, dimmers and thermostats with all arguments, all devices, databases and file faults, all message writers with any pattern of failures", "why_tests_cant": "Each command makes several exchanges and any of them can fail in any way; the tests of ic do not cover the commands.", "anchors": ["cmd/ic/main.go main open", "cmd/ic/device.go device.init device.dumpCmd device.editCmd editLinks printDevInfo", "cmd/ic/switch.go swtch.switchConfigCmd swtch.switchStatusCmd", "cmd/ic/dimmer.go dimmer.configCmd dimmer.statusCmd", "cmd/ic/thermostat.go thermostat.thermStatusCmd"]}
{"id": "C203", "title": "Calls on devices made by several goroutines", "statement": "A call on a device made by one of several goroutines that share a PLM, whatever the others do and however the steps are interleaved: all it writes are requests to send messages to its own device with the commands documented for the call, and not more than the call sends messages times the number of attempts. When it reports success, then for every message it sent it was given the modem's confirmation of this very request and after that an acknowledgement from its own device. What it comes to is what the call by itself comes to in the world as this goroutine sees it.", "quantifier": "all calls on devices with all arguments, all numbers and programs of goroutines, all schedules and everything that arrives at the port, all numbers of retries", "why_tests_cant": "The goroutines share the two channels of the port; which of them takes what depends on the schedule, and there are infinitely many.", "anchors": ["plm/plm.go PLM.Write PLM.Read PLM.WritePacket PLM.readLoop", "plm/port.go retry retryWriter.WritePacket", "devices/basic.go BasicDevice.Write BasicDevice.SendCommand BasicDevice.Send BasicDevice.ExtendedGet", "devices/linkdb.go linkdb.refresh linkdb.WriteLink linkdb.WriteLinks linkdb.UpdateLinks linkdb.AddLinks"]}
{"id": "C204", "title": "Calls on devices depend on nothing but the answers", "statement": "A call on a device, made over two message writers that give the same results to reads and to the messages this call may send, returns the same over both: the same values, the same error, the same knowledge of the device's links; and it leaves the two in corresponding states. So no state of the program, no other traffic and not the kind of message writer goes into what a call does. A crash while a message is read or written is a crash of the call: it never goes on after one.", "quantifier": "all calls on devices with all arguments, all pairs of message writers with any states and any relation between them, all histories of answers", "why_tests_cant": "There are infinitely many message writers and histories; a test compares two at a time.", "anchors": ["devices/basic.go BasicDevice.Write BasicDevice.SendCommand BasicDevice.Send BasicDevice.ExtendedGet", "devices/linkdb.go linkdb.refresh linkdb.WriteLink linkdb.WriteLinks linkdb.UpdateLinks linkdb.AddLinks", "devices/connection.go GetEngineVersion IDRequest", "devices/device.go Open", "devices/thermostat.go Thermostat.Status", "devices/switch.go Switch.Status Switch.Config", "devices/dimmer.go Dimmer.Config"]}
{"id": "C205", "title": "The serial line is transparent for calls on devices", "statement": "Let the network be anything that answers requests to send messages: the modem accepts, refuses or says nothing, and messages from any devices come in before and after its answer, with noise on the line. Then calls on devices over the serial line (bytes, frames, the reading goroutine, the two queues, repeated attempts) return exactly what they return over the same network in terms of messages: a request is repeated as long as the modem refuses, up to the number of retries; received messages are kept in order, ten at most; writing a message gives the first acknowledgement from the device addressed and passes over what came before it. Values, errors, the state of the network and the messages left unread agree, after one call and after any number of them.", "quantifier": "all networks with any state and any behaviour, all noise without frames, all calls on devices with all arguments one after the other, all numbers of retries", "why_tests_cant": "It relates two implementations for all histories of the network, with all noise and all numbers of messages; a test plays one history.", "anchors": ["plm/plm.go PLM.Write PLM.Read PLM.WritePacket PLM.readLoop", "plm/port.go retry retryWriter.WritePacket", "plm/packet.go Packet.MarshalBinary Packet.UnmarshalBinary", "devices/basic.go BasicDevice.Write BasicDevice.SendCommand BasicDevice.Send BasicDevice.ExtendedGet"]}
{"id": "C206", "title": "Failures of the port in calls on the modem", "statement": "If the port fails during a call on the modem (a write returns an error, or nothing comes within the time limit), the call ends there: it writes and reads nothing more, and returns this very error. So a call that returns no error has not met a failure of the port. (Asking for the modem's address or its text returns no error at all: a failure shows as the address 00.00.00. An error of the port that is one of the library's own values for a refusal, a late answer or a wrong payload is taken for that.)", "quantifier": "all calls on the modem with all arguments, all behaviours of the port with any state, all numbers of retries", "why_tests_cant": "The failure can come at any of unboundedly many points of a call, after any history of the port.", "anchors": ["plm/plm.go PLM.Info PLM.Reset PLM.Config PLM.SetConfig PLM.Address PLM.String PLM.ReadPacket PLM.WritePacket", "plm/linkdb.go linkdb.refresh linkdb.Links linkdb.WriteLinks linkdb.IterateDevices linkdb.EnterLinkingMode", "plm/port.go retry retryWriter.WritePacket", "cmd/ic/plm.go plmCmd.infoCmd"]}
{"id": "C207", "title": "What calls on the modem write", "statement": "A call on the modem writes the frames of the protocol that belong to it and nothing else: each request at least once and at most as often as the retries allow, in the order documented. Reading the links asks for the first and then for the next ones; when it succeeds, the next one has been asked for once for every link returned, apart from retries. Replacing the links deletes those known before, in order, before the first new one is written, and writes the new ones in order; only where the modem answers that it has got something else, one record is deleted and this link written again. When the call succeeds nothing of this has been left out.", "quantifier": "all calls on the modem with all arguments, all behaviours of the port with any state, all numbers of retries and of links", "why_tests_cant": "What is written depends on all answers of the modem; there are infinitely many histories of them and lists of links of any length.", "anchors": ["plm/plm.go PLM.Info PLM.Reset PLM.Config PLM.SetConfig PLM.Address PLM.String PLM.ReadPacket PLM.WritePacket", "plm/linkdb.go linkdb.refresh linkdb.Links linkdb.WriteLinks linkdb.IterateDevices linkdb.EnterLinkingMode", "plm/port.go retry retryWriter.WritePacket", "cmd/ic/plm.go plmCmd.infoCmd"]}
{"id": "C208", "title": "Commands of ic for devices are determined by the answers", "statement": "A command of ic for a device does the same over any two connections that answer alike: it prints the same text, ends with the same error or crash, and leaves the same database file. So what ic prints about a device, and what it does to it, is the same over the modem on the serial line, with busy answers, echoes and messages for others in between, as it would be over the messages themselves.", "quantifier": "all commands of ic for devices with all arguments, all database files, all faults of the file, all addresses, all networks of devices with any state, all histories, all numbers of retries", "why_tests_cant": "The commands make many calls one after another, each depending on all the answers before; there are infinitely many connections and histories.", "anchors": ["cmd/ic/main.go open", "cmd/ic/device.go device.init device.versionCmd device.sendCmd device.infoCmd device.dumpCmd device.editCmd printDevInfo editLinks", "cmd/ic/switch.go swtch.init swtch.switchConfigCmd swtch.switchStatusCmd", "cmd/ic/dimmer.go dimmer.init dimmer.configCmd dimmer.statusCmd", "cmd/ic/thermostat.go thermostat.init thermostat.thermStatusCmd", "util/database.go fileDB.Open"]}
{"id": "C209", "title": "Calls on the modem made by several goroutines", "statement": "When goroutines share a modem, each call on it keeps to its protocol whatever the others do: at every moment a goroutine has written the beginning of what its call may write, in that order, with each request repeated at most as often as the retries allow; when the call is over it has written what the call writes, and all of it if it reports success; and its result is what the call by itself gives for the answers that reached this goroutine. This holds for information, configuration, reset, linking mode, the address, reading and replacing the links, the linked devices, reading a packet, and the report of ic about the modem.", "quantifier": "all calls on the modem, all numbers of goroutines and what they do, all interleavings, all packets that arrive and all that are lost, late or fail", "why_tests_cant": "The interleavings are unbounded in number and a test runs one of them; whether a request is repeated too often shows only when answers go to the wrong goroutine at the wrong time.", "anchors": ["plm/plm.go PLM.Info PLM.Address PLM.Config PLM.SetConfig PLM.Reset PLM.WritePacket PLM.ReadPacket PLM.String", "plm/linkdb.go linkdb.refresh linkdb.Links linkdb.WriteLinks linkdb.IterateDevices", "cmd/ic/plm.go plmCmd.infoCmd"]}
{"id": "C210", "title": "Replacing the modem's links by several goroutines at once", "statement": "When several goroutines replace the links of one modem at the same time and all report success, the modem holds the list of one of them.", "quantifier": "all lists of links, all numbers of goroutines, all interleavings, all modems that keep to the protocol", "why_tests_cant": "A test sees one interleaving; the bad ones are those in which one goroutine writes after another has looked at what there is to delete.", "anchors": ["plm/linkdb.go linkdb.WriteLinks linkdb.deleteLink linkdb.writeLink"]}
{"id": "C211", "title": "The text of an error tells which error it is", "statement": "Two different errors of the library are never shown with the same text: what ic prints when a command fails identifies the error.", "quantifier": "all pairs of error values of the library", "why_tests_cant": "Tests compare error values or look at one text; that no two of all errors share a text is a statement about all pairs.", "anchors": ["error.go", "devices/error.go", "plm/plm.go PLM.ReadPacket PLM.Read", "util/link.go", "util/database.go", "cmd/ic/main.go main"]}
{"id": "C212", "title": "An error about too few bytes says how many are missing", "statement": "When decoding a message, a link record, a request about links, thermostat information, product data or a linking request fails because there are too few bytes, the error says how many bytes there were and how many are wanted, and the difference is the number missing: with fewer it fails again, with as many it does not fail for this reason.", "quantifier": "all byte sequences and all continuations of them", "why_tests_cant": "The numbers must be right for every length and content, and for every way the data may go on.", "anchors": ["message.go Message.UnmarshalBinary", "link.go LinkRecord.UnmarshalBinary", "devices/linkdb.go LinkRequest.UnmarshalBinary", "devices/thermostat.go ThermostatInfo.UnmarshalBinary", "devices/device.go ProductData.UnmarshalBinary", "plm/linkdb.go allLinkReq.UnmarshalBinary"]}
{"id": "C213", "title": "Links shown on a stream arrive whole or the error is returned", "statement": "When links, or the links of a device, are printed or dumped to an io.Writer, no error means that the whole text has arrived and nothing else; otherwise a first part of it has arrived, the error returned is that of the first write that failed, and nothing is written after it. If the links of the device cannot be read, that error is returned and nothing is written.", "quantifier": "all lists of links, all devices, all writers that fail at any point in any way", "why_tests_cant": "A writer may fail at any byte; tests write to a buffer that never fails.", "anchors": ["util/link.go DumpLinks DumpLinkDatabase PrintLinks PrintLinkDatabase"]}
{"id": "C214", "title": "Files made from the table of commands say what the table says", "statement": "For every table of commands whose constants have proper names and whose texts have no line breaks, quotes, backslashes or columns, the Go file the generator writes declares exactly the constants of the table, each with the value of its three bytes, and gives each constant the name it has in the table; the tables of COMMANDS.md have exactly the commands of the table as rows, with their bytes, names and notes, apart from the convenience commands. The files in the project are the ones made from its table.", "quantifier": "all tables of commands, all years in the licence", "why_tests_cant": "The table grows; the generator has no tests, and whether each entry comes out right depends on every text in it.", "anchors": ["internal/main.go main", "internal/commands.go commands commandGroup command"]}
{"id": "C215", "title": "The file of device categories names what the table of categories lists", "statement": "For every table of domains with proper names and different numbers, and every table of categories whose numbers are written as 0x and hex digits, the Go file the generator writes declares exactly the domains with their numbers and names exactly the categories of the records, each with the name of its record without the white space around it, and without the byte order mark at the beginning of the table; if no two records have the same category, no two lines have. No file is made if and only if a record has a domain that is not in the table. devcats.go is the file made from the project's table.", "quantifier": "all tables of domains and of categories, all years in the licence", "why_tests_cant": "The table has hundreds of records from a spreadsheet, with marks and non-breaking spaces in it; the generator has no tests.", "anchors": ["internal/devcats.go data parseHex domain category", "devcats.go devcatStrings"]}
{"id": "C216", "title": "The table of device categories is read from its file as it was written", "statement": "If a file lists rows of the same number of fields, at least two, with commas between the fields, quotes around those that need them, and line ends, then the generator of device categories sees exactly these rows. A file whose rows differ in their number of fields is refused. Reading any file ends, with an error or with rows of the same number of fields. The file of the project gives exactly the categories that devcats.go names.", "quantifier": "all tables and all ways to write them, all files", "why_tests_cant": "Names with commas and quotes in them are written in a form of their own; the generator has no tests.", "anchors": ["internal/devcats.go data", "devcats.go devcatStrings"]}
{"id": "C217", "title": "Numbers in the table of device categories are read as Go writes numbers, and a table with anything else is refused", "statement": "The generator of device categories accepts a text as the number of a domain or category exactly if it is written as Go writes integers (decimal, octal after 0 or 0o, binary after 0b, hexadecimal after 0x, letters in either case, single underscores between digits, an optional sign) and fits 64 bits, and it takes it as the number so written. It makes a file of exactly the tables in which every row, byte order marks apart, has the number of a known domain and a number as category.", "quantifier": "all texts, all tables", "why_tests_cant": "There are infinitely many texts in five forms with separators; the generator has no tests.", "anchors": ["internal/devcats.go parseHex data"]}

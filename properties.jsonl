{"id": "C01", "title": "Printed node addresses parse back to themselves", "statement": "Printing any FidoNet address z:n/f.p and parsing the result yields the same four numbers; the parser is insensitive to which of the components are omitted only in the documented way.", "quantifier": "every zone, net, node, point in 0..65535 (2^64 addresses)", "why_tests_cant": "2^64 addresses; decimal rendering of every 16-bit value and the position-dependent parsing must be inverse for all of them.", "anchors": ["src/shared/node4d.c: Print4D, Parse4D, Parse4DTemplate"]}
{"id": "C02", "title": "Address comparison is equality with zone 0 as wildcard", "statement": "Comparing two addresses reports equal exactly when net, node and point are equal and the zones are equal or one of them is 0; the order is antisymmetric; among addresses with nonzero zones it is a total order.", "quantifier": "all pairs/triples of addresses", "why_tests_cant": "Order laws quantify over all triples of addresses; the zone wildcard makes sampled checks misleading (equality is not transitive).", "anchors": ["src/shared/node4d.c: Compare4D"]}
{"id": "C03", "title": "Node patterns match exactly the nodes they describe", "statement": "A node-pattern component matches a 16-bit number exactly when the decimal rendering of the number matches the component with ? standing for one character and * for any rest; a 4D pattern matches iff all of its components match.", "quantifier": "every pattern string of at most 9 characters per component and every address", "why_tests_cant": "The pattern and number spaces are far too large to enumerate and matching depends on the decimal rendering.", "anchors": ["src/crashmail/node4dpat.c: NodeCompare, Compare4DPat, rawParse4DPat"]}
{"id": "C04", "title": "Netmail routing uses the first matching route and an address expanded from it", "statement": "A netmail destination is routed by the first ROUTE line whose pattern matches; the next hop is the destination pattern with each '*' component replaced by the corresponding component of the original address, and a destination pattern without wildcards always yields the same node.", "quantifier": "every route table and every destination address", "why_tests_cant": "Route tables are unbounded lists; first-match semantics is about all earlier lines not matching.", "anchors": ["src/crashmail/handle.c: HandleNetmail", "src/crashmail/node4dpat.c: ExpandNodePat"]}
{"id": "C05", "title": "Mail-flavour changes are decided by the CHANGE table", "statement": "The flavour (normal/crash/hold/direct) used for a destination is the one obtained by applying the matching CHANGE lines; a message whose flavour and destination match no line keeps its flavour.", "quantifier": "every CHANGE table, every flavour and destination", "why_tests_cant": "Unbounded tables and order-dependent rules.", "anchors": ["src/crashmail/misc.c: ChangeType"]}
{"id": "C06", "title": "Intrusive lists behave as sequences", "statement": "Add, remove-by-pointer, remove-nth and free on the program's linked lists behave like the same operations on a finite sequence; the First/Last pointers always delimit the sequence.", "quantifier": "every sequence of list operations", "why_tests_cant": "Heap aliasing bugs show up only for particular operation histories (removing first/last/only element).", "anchors": ["src/shared/jblist.c: jbAddNode, jbFreeNum, jbFreeNode, jbFreeList"]}
{"id": "C07", "title": "Message text accumulation is lossless", "statement": "Appending any sequence of byte strings to a message text yields exactly their concatenation, however long, and no chunk of the buffer ever exceeds its capacity.", "quantifier": "every sequence of appended strings, of any length, from any reachable buffer state", "why_tests_cant": "Chunk boundary behaviour depends on lengths modulo the 10000-byte chunk and on where carriage returns fall.", "anchors": ["src/crashmail/memmessage.c: mmAddBuf"]}
{"id": "C08", "title": "The SEEN-BY set never holds a node twice and never loses one", "statement": "After any sequence of additions the SEEN-BY node list contains exactly the nodes added, each once; sorting it only reorders it, into ascending net/node order.", "quantifier": "every sequence of net/node additions", "why_tests_cant": "Set semantics over unbounded histories with chunked storage.", "anchors": ["src/crashmail/memmessage.c: mmAddNodes2DList, mmSortNodes2D"]}
{"id": "C09", "title": "SEEN-BY lines written are read back as the same set of nodes", "statement": "Formatting a node list into SEEN-BY lines (with the net omitted when repeated and line folding) and parsing these lines back yields the same sequence of nodes; no line exceeds 79 characters.", "quantifier": "every list of 16-bit net/node pairs, of any length", "why_tests_cant": "The short form depends on the previous node and line breaks on accumulated widths; unbounded combinations.", "anchors": ["src/crashmail/memmessage.c: mmMakeSeenByBuf, AddSeenby, mmAddLine"]}
{"id": "C10", "title": "PATH bookkeeping never appends a duplicate tail and preserves earlier hops", "statement": "Adding the system's own address to the PATH lines keeps every earlier hop in order, adds the address as last hop unless it already is the last hop, and keeps each line within the buffer.", "quantifier": "every sequence of PATH lines and own address", "why_tests_cant": "The short form depends on the last net seen in any line and on line length.", "anchors": ["src/crashmail/handle.c: AddNodePath"]}
{"id": "C11", "title": "Packet header written is packet header read", "statement": "The origin, destination (zone, net, node, point) and password that go into a packet header are recovered exactly by the packet reader.", "quantifier": "every pair of addresses, every password of at most 8 bytes", "why_tests_cant": "The type-2+ header has aliased/duplicated and conditional fields; correctness is for all values including point systems.", "anchors": ["src/crashmail/pkt.c: CreatePkt, ReadPkt"]}
{"id": "C12", "title": "A written packet is read back as exactly the messages written", "statement": "A packet produced by writing any list of messages and closing it is read by the packet reader as exactly these messages, in order, with the same names, subject, date, attributes, addresses and text.", "quantifier": "every list of messages whose strings are NUL free and within the field limits", "why_tests_cant": "Message boundaries depend on terminators embedded in unbounded byte strings.", "anchors": ["src/crashmail/pkt.c: WriteMsgHeader, WriteNull, FinishPacket, ReadPkt, ReadNull, ReadCR"]}
{"id": "C13", "title": "Reading a packet is total and memory-safe for every byte string", "statement": "For every byte sequence given as a packet file the reader terminates, never stores more than the capacity in any header field, and classifies the packet as bad exactly when it is truncated or has an unknown message type.", "quantifier": "every finite byte sequence", "why_tests_cant": "Untrusted network input; fuzzing only samples it.", "anchors": ["src/crashmail/pkt.c: ReadPkt, ReadNull, ReadCR"]}
{"id": "C14", "title": "Dupe detection catches every repeat within the window", "statement": "If a MSGID/area pair was recorded and fewer than the configured number of messages were recorded since, checking it again reports a duplicate.", "quantifier": "every history of checked messages, every window size, across database close/open", "why_tests_cant": "A statement about all histories and a wrapping ring buffer.", "anchors": ["src/crashmail/dupe.c: CheckDupe, AddDupeBuf, adddupeindex, OpenDupeDB, CloseDupeDB"]}
{"id": "C15", "title": "Dupe detection has no false positives", "statement": "A message is reported as duplicate only if a message with the same area and the same MSGID (byte-wise) was recorded earlier, even when the hash codes collide.", "quantifier": "every history of checked messages", "why_tests_cant": "Hash collisions cannot be found by sampling but must not lose mail.", "anchors": ["src/crashmail/dupe.c: CheckDupe, dupecomp"]}
{"id": "C16", "title": "The dupe database round-trips through its file", "statement": "Closing the dupe database and opening it again preserves the recorded entries that fit in the window, in order.", "quantifier": "every reachable database state", "why_tests_cant": "Binary format with length prefixes over arbitrary byte strings; wrap-around positions.", "anchors": ["src/crashmail/dupe.c: OpenDupeDB, CloseDupeDB"]}
{"id": "C17", "title": "Echomail is never sent back to where it has been", "statement": "A tossed echomail message is never exported to the node it came from, nor to a passive or write-only link, nor to a node listed in its SEEN-BY lines. SEEN-BY lines count when checking them is switched on, the area does not ignore them, and the node is not a point and in the same zone as the sender and the area address.", "quantifier": "every area configuration, link list, SEEN-BY set and sender", "why_tests_cant": "Over all configurations of links and flags.", "anchors": ["src/crashmail/handle.c: HandleEchomail"]}
{"id": "C18", "title": "Echomail reaches every link that has not seen it", "statement": "Every link of the area that is neither the sender nor in SEEN-BY nor passive/write-only gets exactly one copy, and all of them appear in the SEEN-BY of every outgoing copy.", "quantifier": "every area configuration, link list, SEEN-BY set and sender", "why_tests_cant": "Completeness over unbounded link lists; duplicates when two links compare equal.", "anchors": ["src/crashmail/handle.c: HandleEchomail", "src/crashmail/pkt.c: WriteEchoMail"]}
{"id": "C19", "title": "Senders without write permission cannot post", "statement": "A message from a node that is not linked to the area (when the area checks links) or is linked read-only is put in the bad area and is neither imported nor forwarded.", "quantifier": "every area configuration and sender", "why_tests_cant": "A security property: must hold for all configurations and senders.", "anchors": ["src/crashmail/handle.c: HandleEchomail"]}
{"id": "C20", "title": "Every tossed echomail has exactly one disposition", "statement": "For every incoming echomail message exactly one of these holds: it is processed (imported/forwarded as the area says), written to the bad area (if there is one), or dropped for a documented reason (duplicate in KILL mode, filter KILL), or an error is reported.", "quantifier": "every message, area table and configuration", "why_tests_cant": "Case analysis over all configuration flags; a missed branch silently loses mail.", "anchors": ["src/crashmail/handle.c: HandleEchomail, WriteBad"]}
{"id": "C21", "title": "Netmail loops are recognised", "statement": "A netmail that already carries a Via line of one of the system's own addresses is recognised as looping by the loop check, and one that carries none is not.", "quantifier": "every message text and AKA list", "why_tests_cant": "Requires scanning arbitrary text in arbitrary chunks.", "anchors": ["src/crashmail/handle.c: IsLoopMail"]}
{"id": "C22", "title": "Bounces cannot cause bounce storms", "statement": "No bounce is ever generated for an automatically generated message, and every bounce message the system generates is itself marked as automatically generated; hence two such systems exchange a bounded number of bounces.", "quantifier": "every sequence of bounces between any number of systems running this code", "why_tests_cant": "A liveness/loop property over unbounded histories.", "anchors": ["src/crashmail/handle.c: Bounce, AnswerReceipt, AnswerAudit"]}
{"id": "C23", "title": "Netmail kludges preserve 4D addresses end to end", "statement": "The INTL/FMPT/TOPT kludges generated for a netmail restore the full origin and destination address when read by the kludge parser.", "quantifier": "every pair of addresses", "why_tests_cant": "2^128 address pairs; conditional kludges.", "anchors": ["src/crashmail/misc.c: MakeNetmailKludges", "src/crashmail/memmessage.c: ProcessKludge"]}
{"id": "C24", "title": "AreaFix changes nothing without the right password", "statement": "A request to AreaFix from a node that is not configured, or with a password different from the configured one, leaves the configuration (links, passwords, flags) unchanged.", "quantifier": "every request message and configuration", "why_tests_cant": "Security property over all request texts.", "anchors": ["src/crashmail/areafix.c: AreaFix"]}
{"id": "C25", "title": "AreaFix gives links only to areas the node may have", "statement": "After any AreaFix request every new link belongs to an area whose group is among the node's groups or read-only groups and from which it is not banned, and links through read-only groups or in read-only-by-default areas are read-only.", "quantifier": "every configuration, request command list and node", "why_tests_cant": "Security invariant over all histories of commands.", "anchors": ["src/crashmail/areafix.c: AreaFix, CheckFlags"]}
{"id": "C26", "title": "AreaFix keeps at most one link per node and area, and touches no other node's links", "statement": "Any sequence of AreaFix commands of one node preserves 'no node is linked twice to an area' and leaves all links of other nodes unchanged (unless the whole area is removed under the configured policy).", "quantifier": "every command sequence", "why_tests_cant": "Invariant over unbounded command histories.", "anchors": ["src/crashmail/areafix.c: AreaFix", "src/crashmail/handle.c: AddTossNode"]}
{"id": "C27", "title": "Mandatory areas cannot be left", "statement": "A node's link to an area flagged MANDATORY is never removed by an AreaFix command unless the link is a feed.", "quantifier": "every command sequence", "why_tests_cant": "Invariant over all histories.", "anchors": ["src/crashmail/areafix.c: AreaFix"]}
{"id": "C28", "title": "AreaFix replies are complete and split within the limit", "statement": "All lines of an AreaFix reply are sent, in order, over one or more messages none of which exceeds the configured maximum number of lines.", "quantifier": "every list of reply lines and limit", "why_tests_cant": "Depends on line counts modulo the limit.", "anchors": ["src/crashmail/areafix.c: afInitReply, afAddLine, afSendMessage"]}
{"id": "C29", "title": "Area lists show exactly the areas the node may see", "statement": "The %LIST/%QUERY/%UNLINKED replies list exactly the areas that satisfy the documented visibility rule, sorted by group and tag.", "quantifier": "every configuration and node", "why_tests_cant": "Information disclosure/completeness over all configurations.", "anchors": ["src/crashmail/areafix.c: rawSendList, AddSortList, SortSortList, CompareAreas"]}
{"id": "C30", "title": "Quoted configuration strings round-trip", "statement": "Any string written by the configuration writer is read back as the same string by the configuration tokenizer, including quotes and backslashes.", "quantifier": "every NUL- and newline-free string within the buffer limit, followed by any rest of line", "why_tests_cant": "Escaping over arbitrary strings.", "anchors": ["src/crashmail/config.c: WriteSafely", "src/shared/jbstrcpy.c: jbstrcpy"]}
{"id": "C31", "title": "Tokenizer never overruns the destination and always progresses", "statement": "The tokenizer writes at most the given number of bytes including the terminator, and repeated calls reach the end of every line after finitely many tokens.", "quantifier": "every input line, start position and destination size ≥ 1", "why_tests_cant": "Memory safety/termination over arbitrary input.", "anchors": ["src/shared/jbstrcpy.c: jbstrcpy, jbstrcpyrest"]}
{"id": "C32", "title": "Configuration rewrite touches only changed entries", "statement": "When the configuration file is rewritten after AreaFix or auto-add, every line that does not belong to a changed node or area is preserved byte for byte and in order.", "quantifier": "every configuration file and set of changes", "why_tests_cant": "Arbitrary file contents and interleavings of sections.", "anchors": ["src/crashmail/config.c: UpdateConfig"]}
{"id": "C33", "title": "Configuration is never lost in a crash during rewrite", "statement": "At every crash point during a configuration rewrite the complete old or new configuration exists on disk under the configuration name or its .bak name.", "quantifier": "every crash point between file-system operations", "why_tests_cant": "Crash points cannot be exercised by unit tests.", "anchors": ["src/crashmail/config.c: UpdateConfig"]}
{"id": "C34", "title": "Filter expressions evaluate as documented", "statement": "AND/OR are evaluated left to right, parentheses group, and NOT negates the operand that follows it, including a parenthesised group.", "quantifier": "every expression and every valuation of the atoms", "why_tests_cant": "Unbounded nesting.", "anchors": ["src/shared/expr.c: expr_eval, expr_get, expr_getrest"]}
{"id": "C35", "title": "Substring filters find every occurrence", "statement": "A substring filter reports a match exactly when the pattern occurs in the text (ignoring case).", "quantifier": "every pattern and text", "why_tests_cant": "Boyer-Moore skip tables err only on particular pattern/text combinations.", "anchors": ["src/crashmail/filter.c: bminit, bmfind, filter_comparetext"]}
{"id": "C36", "title": "Wildcard patterns for names and areas", "statement": "A name pattern without wildcard characters matches exactly the equal names ignoring case; '?' matches any one character and '*' any sequence of characters.", "quantifier": "every pattern and name", "why_tests_cant": "Unbounded strings.", "anchors": ["src/oslib_linux/ospattern.c: osMatchPattern"]}
{"id": "C37", "title": "A killed message is not processed by later filters and not delivered", "statement": "As soon as a matching filter's KILL command (or an EXECUTE command asking for it) is executed no later filter command is executed and the message is discarded; otherwise every command of every matching filter is executed once, in order.", "quantifier": "every filter list and message", "why_tests_cant": "All filter lists and combinations.", "anchors": ["src/crashmail/filter.c: Filter"]}
{"id": "C38", "title": "Bundle names never collide", "statement": "The archive name chosen for a new bundle is either the node's current bundle or a name that does not exist in the outbound.", "quantifier": "every directory state and sequence of archiving operations", "why_tests_cant": "All directory contents and day/extension wrap-arounds.", "anchors": ["src/crashmail/outbound.c: MakeArcName"]}
{"id": "C39", "title": "Outbound base names are unique per node", "statement": "Two distinct destination addresses never share the same outbound flow/lock file name.", "quantifier": "all pairs of addresses, for each outbound numbering scheme", "why_tests_cant": "2^128 pairs.", "anchors": ["src/crashmail/outbound.c: MakeBaseName"]}
{"id": "C40", "title": "Flow-file entries are added once", "statement": "Adding a file to a node's flow file keeps all existing entries and results in the file being listed exactly once if it was listed at most once.", "quantifier": "every flow file content and sequence of additions", "why_tests_cant": "All histories and contents.", "anchors": ["src/crashmail/outbound.c: doAddFlow, AddFlow"]}
{"id": "C41", "title": "Inbound mail is removed only after its results are on disk", "statement": "At every crash point of a toss run each message of the inbound is still present in an inbound packet or its outgoing copies are in finished packets; inbound files are deleted only after all outgoing packets have been closed and archived successfully.", "quantifier": "every crash point and every sequence of packets and I/O outcomes", "why_tests_cant": "Crash points and I/O failures cannot be enumerated by tests.", "anchors": ["src/crashmail/crashmail.c: AfterScanToss", "src/crashmail/safedel.c: AddSafeDelete, ProcessSafeDelete", "src/crashmail/toss.c: TossFile, TossDir"]}
{"id": "C42", "title": "Bad packets are kept under an unused name", "statement": "Renaming a bad packet never overwrites an existing file as long as one of the candidate names is free.", "quantifier": "every directory state", "why_tests_cant": "All directory contents.", "anchors": ["src/crashmail/misc.c: BadFile"]}
{"id": "C43", "title": "Messages stored in a JAM base are read back unchanged", "statement": "After adding messages to a JAM base every message's header, subfields and text can be read back byte for byte, earlier messages are unaffected, and the active-message counter equals the number of undeleted messages.", "quantifier": "every sequence of add/delete/read operations and every message content", "why_tests_cant": "All histories over a three-file binary format.", "anchors": ["src/jamlib/message.c: JAM_AddMessage, JAM_ReadMsgHeader, JAM_ReadMsgText, JAM_AddEmptyMessage, JAM_DeleteMessage"]}
{"id": "C44", "title": "JAM on-disk structures round-trip", "statement": "Serialising and reading back the JAM base header, message header, index record, lastread record and subfields yields the same values in little-endian layout of the fixed sizes.", "quantifier": "every field value", "why_tests_cant": "All 32-bit values.", "anchors": ["src/jamlib/structrw.c", "src/jamlib/subpack.c"]}
{"id": "C45", "title": "MSG import never overwrites a message", "statement": "Importing a message into a *.msg area never overwrites an existing file and never uses the number reserved for the high-water mark.", "quantifier": "every directory state and sequence of imports", "why_tests_cant": "All directory contents, gaps and concurrent files.", "anchors": ["src/crashmail/mb_msg.c: msg_WriteMSG, msg_GetHighLowMsg"]}
{"id": "C46", "title": "MSG export sends each local message once", "statement": "Exporting an area sends every unsent local message exactly once over any number of runs.", "quantifier": "every sequence of runs and interleaved new messages", "why_tests_cant": "Histories.", "anchors": ["src/crashmail/mb_msg.c: msg_exportfunc, msg_ExportMSGNum"]}
{"id": "C47", "title": "Statistics file round-trips", "statement": "Statistics written at the end of a run are read back as the same values for every configured area and node at the next run.", "quantifier": "every set of areas and counters", "why_tests_cant": "All record contents.", "anchors": ["src/crashmail/stats.c: WriteStats, ReadStats"]}
{"id": "C48", "title": "The eight-day history shifts by the number of days passed", "statement": "At the end of a run the eight-day counters are shifted by exactly the number of days since the last run, with zeros for missing days, whatever the gap. The time of the first message of a node is noted once and never changed.", "quantifier": "every gap and counter state", "why_tests_cant": "All gaps, including clock going backwards.", "anchors": ["src/crashmail/crashmail.c: AfterScanToss"]}
{"id": "C49", "title": "Nodelist index lookup agrees with the nodelist", "statement": "Looking up an address in the index built by CrashList finds it exactly when the nodelist contains an entry for that address and yields its region, hub and file position.", "quantifier": "every nodelist file and address", "why_tests_cant": "All nodelists.", "anchors": ["src/tools/crashlist.c: ProcessList, WriteIdx", "src/cmnllib/cmnllib.c: cmnlFindNL"]}
{"id": "C50", "title": "CrashMaint keeps the newest messages and never clobbers while renumbering", "statement": "Limiting an area to N messages deletes exactly the oldest surplus messages; renumbering maps the remaining messages onto 2,3,... preserving order and contents, and no rename ever targets an existing file.", "quantifier": "every set of message numbers and dates, every limit", "why_tests_cant": "All sets of message numbers with gaps.", "anchors": ["src/tools/crashmaint.c: ProcessAreaMSG, Compare, Sort"]}
{"id": "C51", "title": "Packing a JAM base loses no undeleted message", "statement": "Packing preserves every undeleted message with its message number, order, header, subfields and text.", "quantifier": "every JAM base", "why_tests_cant": "All bases.", "anchors": ["src/tools/crashmaint.c: ProcessAreaJAM"]}
{"id": "C52", "title": "Command-line arguments", "statement": "Every string argument given on the command line is stored in exactly one argument slot or reported as an error; boolean switches are set exactly when named.", "quantifier": "every argument vector", "why_tests_cant": "Unbounded argument vectors.", "anchors": ["src/shared/parseargs.c: parseargs"]}
{"id": "C53", "title": "Path joining", "statement": "Joining a directory and a file name yields dir/file with exactly one separator, truncated to the destination size, and splitting the file part off returns the file name.", "quantifier": "all strings and sizes", "why_tests_cant": "All strings and sizes, including truncation.", "anchors": ["src/shared/path.c: MakeFullPath, GetFilePart"]}
{"id": "C54", "title": "FidoNet dates round-trip", "statement": "A timestamp formatted as FidoNet date string and parsed again yields the same broken-down date for all years the format can represent.", "quantifier": "every valid date and time in the two-digit-year window", "why_tests_cant": "Fixed-width text over a century of seconds.", "anchors": ["src/crashmail/misc.c: MakeFidoDate, FidoToTime"]}
{"id": "C55", "title": "Only one process works on the outbound/configuration at a time", "statement": "Two processes never hold the configuration lock or a node's .bsy lock at the same time.", "quantifier": "every interleaving of any number of processes", "why_tests_cant": "Interleavings are not controllable in unit tests.", "anchors": ["src/crashmail/crashmail.c: LockConfig, UnlockConfig", "src/crashmail/outbound.c: LockBasename"]}
{"id": "C56", "title": "File names are classified unambiguously", "statement": "A file name is treated as a packet, bundle, orphan or bad file exactly according to its suffix, independent of case, and no name is in two classes.", "quantifier": "every file name", "why_tests_cant": "All strings.", "anchors": ["src/crashmail/misc.c: IsArc, IsPkt, IsNewPkt, IsPktTmp, IsOrphan, IsBad"]}
{"id": "C57", "title": "Packets are tossed oldest first", "statement": "The packets of a directory are processed in ascending date order and each exactly once.", "quantifier": "every directory listing", "why_tests_cant": "All permutations.", "anchors": ["src/crashmail/toss.c: TossDir, Compare", "src/crashmail/misc.c: SortFEList"]}
{"id": "C58", "title": "Group access check", "statement": "Access is granted exactly when the area's group letter occurs in the node's group list; an area without a group grants access to no one.", "quantifier": "every group letter and group string", "why_tests_cant": "All strings.", "anchors": ["src/crashmail/areafix.c: CheckFlags", "src/crashmail/misc.c: MatchFlags", "src/crashmail/config.c: CorrectFlags"]}
{"id": "C59", "title": "Netmail appended to an existing packet", "statement": "Packing new netmail for a node into an existing outbound packet yields a valid packet with all old messages followed by all new ones.", "quantifier": "every pair of packets", "why_tests_cant": "All packet contents.", "anchors": ["src/crashmail/outbound.c: PackFile"]}
{"id": "C60", "title": "Area paths are unique", "statement": "A configuration that passes the consistency check has no two message areas stored at the same path and every COPY filter refers to an existing local area.", "quantifier": "every configuration", "why_tests_cant": "All pairs of areas.", "anchors": ["src/crashmail/config.c: CheckConfig"]}
{"id": "C61", "title": "Node addresses outside the valid range are rejected", "statement": "An address text is accepted only if it has net and node parts and every component fits 16 bits; what is accepted has exactly the written components.", "quantifier": "every address text", "why_tests_cant": "The grammar and the numeric range are infinite.", "anchors": ["src/shared/node4d.c: Parse4D, Parse4DTemplate"]}
{"id": "C62", "title": "Node pattern texts mean what they say", "statement": "A pattern text is parsed into exactly the components written in it, missing components are wildcards (point 0), no text overflows the component buffers, and a printed pattern parses back to itself.", "quantifier": "every pattern text and every printable pattern of every kind", "why_tests_cant": "All strings; empty components only misbehave through stale buffer contents.", "anchors": ["src/crashmail/node4dpat.c: rawParse4DPat, Parse4DPat, Print4DPat"]}
{"id": "C63", "title": "File-attach references stay in the inbound directory", "statement": "The file named by a tossed file-attach message is always looked up directly in the inbound directory: the name used has no directory part.", "quantifier": "every subject line of a netmail with the attach bit", "why_tests_cant": "Adversarial subjects are unbounded.", "anchors": ["src/crashmail/handle.c: HandleNetmail", "src/shared/path.c: GetFilePart"]}
{"id": "C64", "title": "Stripping blanks only strips blanks", "statement": "Removing trailing blanks from a name, path line or command removes exactly the trailing blank and control characters and touches no other memory.", "quantifier": "every string", "why_tests_cant": "All byte values including non-ASCII text.", "anchors": ["src/crashmail/misc.c: striptrail, striplead, stripleadtrail"]}
{"id": "C65", "title": "Packet passwords are enforced", "statement": "If a packet comes from a configured node with a packet password and security checks are on, no message in it is processed unless the packet carries that password (in any case), except netmail from nodes that are excused from passwords for netmail.", "quantifier": "every packet file, every configuration, every behaviour of the message handler and every interruption", "why_tests_cant": "A test can try some wrong passwords; it cannot try all packets, orders of netmail and echomail, and malformed packets.", "anchors": ["src/crashmail/pkt.c:ReadPkt"]}
{"id": "C66", "title": "AreaFix requests change no other node's settings", "statement": "Whatever a node writes to AreaFix, no node's address, packet password or access groups change, and the settings of other nodes do not change at all apart from the queue of commands to be sent to their own AreaFix; of the requester's own settings only the AreaFix password, the packer and the passive mark can change.", "quantifier": "every request text, configuration, and behaviour of the outside world", "why_tests_cant": "A request is arbitrary text processed against an arbitrary configuration; tests try some commands only.", "anchors": ["src/crashmail/areafix.c: AreaFix, RemoteAreafixAdd, RemoteAreafixRemove"]}
{"id": "C67", "title": "A packet being archived is never lost", "statement": "While an outgoing echomail packet is handed over to the outbound (packed into the bundle of its node by the packer, or moved there unpacked), the packet is at every moment complete on the disk under its old or its new name, or contained in an archive; if the operation reports success, the file that contains it is listed in the flow file of the node; and nothing that was archived or listed before disappears.", "quantifier": "every packet, node, bundle state, packer that follows its contract, every failing disk operation, and every moment at which the program can be stopped", "why_tests_cant": "Needs every combination of failing operations and every crash point; tests run only a few of them.", "anchors": ["src/crashmail/outbound.c:PackFile", "src/crashmail/outbound.c:doAddFlow", "src/crashmail/outbound.c:MakeArcName", "src/crashmail/misc.c:movefile"]}
{"id": "C68", "title": "A packet file name tells type and destination", "statement": "The name given to a finished outgoing packet is read back by the archiver as exactly the type and the destination of the packet.", "quantifier": "every packet number, type and four-dimensional address", "why_tests_cant": "Tests try a few addresses; the claim is about all 2^64 addresses and all types.", "anchors": ["src/crashmail/pkt.c:FinishPacket", "src/crashmail/outbound.c:PackFile"]}
{"id": "C69", "title": "Renumbering keeps unsent messages above the high water mark", "statement": "When CrashMaint renumbers an area, a message that was above the high water mark (not yet looked at for export) is above it afterwards, and a message that was at or below it is not above it.", "quantifier": "every area, every mark, every set of surviving messages", "why_tests_cant": "Needs the interplay of deletions, renumbering and the mark for arbitrary gaps in the numbers.", "anchors": ["src/tools/crashmaint.c:ProcessAreaMSG"]}
{"id": "C70", "title": "An accepted configuration is consistent", "statement": "If the configuration file is accepted, every string fits the array it is kept in, every area refers to one of the own addresses and only to configured nodes, every node only to a configured packer, groups are letters, and every area has what its kind needs (a message base, a path, links or imports) and nothing its kind cannot have.", "quantifier": "every file contents", "why_tests_cant": "All texts; the rest of the program uses these references and strings without checking them again.", "anchors": ["src/crashmail/config.c:ReadConfig"]}
{"id": "C71", "title": "Reading the configuration file is memory safe", "statement": "For every contents of the configuration file, reading it either succeeds or reports an error; nothing is read or written outside the variables, no variable without a value is used, and no arithmetic overflows.", "quantifier": "every file contents", "why_tests_cant": "All texts, including lines no test would think of.", "anchors": ["src/crashmail/config.c:ReadConfig", "src/crashmail/node4dpat.c:Parse2DPat, Parse4DPat, Parse4DDestPat"]}
{"id": "C72", "title": "Areas and nodes survive being written to the configuration", "statement": "When the program writes the description of an area or a node into the configuration file, reading that description gives back the same area or node: tag, description, path, message base, own address, links with their restrictions, bans, group, limits and switches of an area; address, packer, passwords, groups, priority, switches, remote AreaFix and operator of a node. It changes nothing else.", "quantifier": "every accepted configuration, every area and node in it", "why_tests_cant": "Texts with quotes, backslashes and blanks, any number of links (ten per line), all combinations of switches and all numbers.", "anchors": ["src/crashmail/config.c:WriteArea, WriteNode, WriteSafely, ReadConfig", "src/shared/jbstrcpy.c:jbstrcpy"]}
{"id": "C73", "title": "A restart gives the same configuration", "statement": "The program reads its configuration file; later AreaFix and automatic creation change, remove and add areas and change nodes, and the program rewrites the file. When it is started again and reads the rewritten file, it has exactly the configuration it had in memory: the same areas and nodes with all their settings, in the same order, and all other settings. Rewriting never fails.", "quantifier": "every configuration file, every set of changed, removed and added areas and changed nodes", "why_tests_cant": "The result depends on the interplay of copied, dropped, inserted and appended lines over a file of any length, and on how each line is read again in its new surroundings.", "anchors": ["src/crashmail/config.c:ReadConfig, UpdateConfig, WriteArea, WriteNode", "src/shared/jbstrcpy.c:jbstrcpy"]}
{"id": "C74", "title": "What messages change is saved and survives a restart", "statement": "Whatever messages the program handles after reading its configuration, in any number - echomail that creates areas, requests to AreaFix that link, unlink, create or remove areas and change passwords, packers and the passive mark: every area and node that differs is marked for saving, nothing else of the configuration changes, and when the file is rewritten and the program started again, it has exactly the areas, nodes and settings it had.", "quantifier": "every configuration file, every sequence of messages, every behaviour of the outside world", "why_tests_cant": "A forgotten mark shows only after a restart, for one kind of change; tests would need every kind of message, every order, and a restart after each.", "anchors": ["src/crashmail/areafix.c:AreaFix", "src/crashmail/handle.c:HandleMessage, AddArea", "src/crashmail/config.c:UpdateConfig, ReadConfig"]}
{"id": "C75", "title": "Replies in JAM areas are linked", "statement": "When replies are linked after a run, then in every area with new messages, for any number of messages old and new: a new message that answers a message of the area points to it, the answered message points to its first reply and the replies are chained, nothing but these links changes in any message, and areas without new messages are not touched. High water marks are written exactly for the areas where they changed.", "quantifier": "every message base, every set of new messages, every distribution of message identifiers", "why_tests_cant": "Threads arise from the order in which messages and their answers arrive; tests see a few orders only.", "anchors": ["src/crashmail/mb_jam.c:jam_linkmb, jam_setreply, jam_CompareMsgIdReply, jam_afterfunc"]}
{"id": "C76", "title": "Open message bases are managed safely", "statement": "In whatever order areas are used, and whichever of them can be opened: each use gets a base that is open and belongs to the area asked for; no base is closed twice or used after it was closed; never are more bases open than configured; only the base that was not used for the longest time is closed to make room; at the end all bases are closed.", "quantifier": "every sequence of uses of areas, every number of slots, every failure to open", "why_tests_cant": "A wrong slot would put messages into another area's files, but only after a particular sequence of areas.", "anchors": ["src/crashmail/mb_jam.c:jam_openbase, jam_beforefunc, jam_afterfunc"]}
{"id": "C77", "title": "Messages are exported from JAM areas exactly once", "statement": "When a JAM area is scanned, exactly the messages that were written locally, are not deleted, not marked as sent and numbered above the high water mark are handed over, in the order of their numbers, and each of them is marked as sent (and deleted, if it is netmail with Kill/Sent and this is configured); no other message changes. If handling one fails or the user interrupts, the rest stays as it was for the next run. Over any sequence of runs and changes by other programs no message is handed over twice, and after a complete run none is left.", "quantifier": "every contents of an area, every handler of messages (which may import into this and other areas), every interruption, every sequence of runs", "why_tests_cant": "Duplicates and lost messages arise from the interplay of marks, attributes, numbers and interruptions over several runs.", "anchors": ["src/crashmail/mb_jam.c:jam_exportfunc, jam_ExportJAMNum, jam_gethighwater"]}
{"id": "C78", "title": "A message in a JAM area comes back as it was", "statement": "When a message is put into a JAM area and later exported or sent again, sender, receiver, subject, date, cost, addresses, the attributes Private, Crash, Hold, FileAttach, FileRequest and ReturnReceiptRequest, SEEN-BY (if it is stored) and PATH are what they were; the text consists of its control lines, new address lines, and all other lines, each unchanged and in their order. Storing it leaves all other messages of the area as they are. No message makes the program access memory outside its buffers.", "quantifier": "every message, every area contents, every option", "why_tests_cant": "A message is split into subfields and attributes of another format and put together again; tests cover a few kludges.", "anchors": ["src/crashmail/mb_jam.c:jam_importfunc, jam_ExportJAMNum, jam_makekludge, jam_addfield"]}
{"id": "C79", "title": "A scan exports every waiting message of every area to be exported", "statement": "SCAN exports the echomail areas and, unless NOEXPORTNETMAIL is set, the netmail areas, in the order of the configuration; SCANLIST and SCANDOTJAM those named by tag or path in a file, in the order of the file and each only once however often it is named; SCANAREA one area. If the scan succeeds, every message that was waiting in one of these areas has been handed over once, in the order of their numbers, and is marked as sent. If handling a message fails or Ctrl-C is pressed, this is true for the messages before some position in each area. All other messages are unchanged, messages of other areas are not exported, and messages that handling adds to areas, scanned already or not yet, are neither lost nor exported in this run.", "quantifier": "every configuration, every contents of the areas, every list of areas, every way of handling messages that may add messages to any of the areas, every point of failure", "why_tests_cant": "Handling a message of one area can add messages to an area scanned before or later; tests run one area at a time.", "anchors": ["src/crashmail/scan.c:Scan, ScanList, ScanDotJam, ScanArea", "src/crashmail/mb_jam.c:jam_exportfunc"]}
{"id": "C80", "title": "A rescan sends the messages of an area again, to one node only", "statement": "RESCAN with the tag of an echomail area and the address of a node sends the messages of the area that are not deleted to this node, in the order of their numbers and each once: all, or those among the last n numbers. No other node gets a copy, nothing is stored, and the messages and the marks of the area stay as they are. Each copy is the message of the base with the line RESCANNED, in which only the addresses of the packet, SEEN-BY and PATH have changed: SEEN-BY has the entries of the message, the own address and that of the node, in order. If the area, the node or the message base does not fit, nothing is done.", "quantifier": "every configuration, every contents of the area, every number n, every point of failure", "why_tests_cant": "Depends on every message in the base, and on which of them were deleted or sent before.", "anchors": ["src/crashmail/crashmail.c:Rescan", "src/crashmail/handle.c:HandleRescan", "src/crashmail/mb_jam.c:jam_rescanfunc", "src/crashmail/mb_msg.c:msg_rescanfunc"]}
{"id": "C81", "title": "An echomail reaches every system of a network exactly once", "statement": "In a network of systems that run the program and exchange packets, whose links for an echomail area form a tree, a message posted at one system is stored exactly once, in that area and with its words unchanged, at every other system, whatever the order in which the packets are delivered and tossed; no system gets two copies, the system where it was posted gets none, and after finitely many runs no packet is left. This holds across zones and with or without SEEN-BY checking, for links that are neither read-only nor write-only nor passive, whose packet passwords agree, and messages that are not filtered and not in the duplicate database.", "quantifier": "every number of systems, every tree, every assignment of addresses and configurations that meets the conditions, every message with complete lines, every order of delivery", "why_tests_cant": "Needs every topology and every order of delivery; a single system cannot show it.", "anchors": ["src/crashmail/handle.c:HandleEchomail", "src/crashmail/handle.c:HandleMessage", "src/crashmail/memmessage.c:mmAddNodes2DList", "src/crashmail/pkt.c:ReadPkt", "src/crashmail/pkt.c:WriteEchoMail"]}
{"id": "C82", "title": "A netmail travels along its route and is stored once at its destination", "statement": "In a network of systems that run the program and exchange packets, a netmail whose routes lead from system to system to one that receives mail for its destination address visits these systems in this order, each once; there is never more than one copy on its way; the last system stores it exactly once, with its text, its names, its date and its four-part addresses unchanged and one Via line for each system it has passed, in order; no other system stores it. This holds for points and across zones, and without an INTL line within a zone.", "quantifier": "every number of systems and length of the route, every assignment of addresses and configurations that meets the conditions, every netmail with complete lines and address lines", "why_tests_cant": "Needs every route and every text; the addresses pass through packet headers and control lines that several functions write and read on different systems.", "anchors": ["src/crashmail/handle.c:HandleNetmail", "src/crashmail/handle.c:HandleMessage", "src/crashmail/pkt.c:ReadPkt", "src/crashmail/pkt.c:WriteNetMail", "src/crashmail/memmessage.c:ProcessKludge"]}
{"id": "C83", "title": "In a connected network with loops an echomail is stored once everywhere", "statement": "In any connected network of systems that run the program, exchange packets and kill duplicates, with any number of loops, a message posted in an echomail area comes to every system; every system but the one where it was posted stores it exactly once, however many copies it gets, with the same text, names, date and area; the system where it was posted stores at most one copy; and the exchange of packets ends, in whatever order the packets are tossed.", "quantifier": "every number of systems and every symmetric connected set of links, every assignment of addresses and configurations that meets the conditions, every message with an identifier, every order in which the packets are tossed", "why_tests_cant": "Needs every network, every message and every order of the packets; a storm of copies shows only in some loops and orders.", "anchors": ["src/crashmail/handle.c:HandleEchomail", "src/crashmail/dupe.c:CheckDupe", "src/crashmail/pkt.c:ReadPkt", "src/crashmail/pkt.c:WriteEchoMail"]}
{"id": "C84", "title": "A system does not store its own message again", "statement": "A message posted at a system does not come back to it over a loop of the network and is not stored there a second time.", "quantifier": "every connected network as in C83, every order in which the packets are tossed", "why_tests_cant": "Shows only in loops across zones and in some orders of the packets.", "anchors": ["src/crashmail/handle.c:HandleEchomail", "src/crashmail/dupe.c:CheckDupe", "src/crashmail/scan.c:Scan"]}
{"id": "C85", "title": "A message stored in a *.msg area comes back as it was", "statement": "A message that was imported into an area of the *.msg format, read again by a rescan or an export at any later time while its file is unchanged, has the same sender, recipient, subject, date, cost, text and addresses, and an echomail also the same PATH, message identifier and (if they are stored) SEEN-BY entries. The only changes are: one line (TID or RESCANNED) and, for netmail without zones, an INTL line are put before the first line that is not a control line; and the attributes that describe the local copy are cleared.", "quantifier": "every message whose fields fit the format and whose text is made of complete lines, every configuration of the format, every content of the area's directory, every disk whose operations succeed, every handler of the messages, rescan or export, every later state of the disk in which the file of the message is the same; the uninitialised bytes of the header are arbitrary", "why_tests_cant": "Texts of any length, any number of control lines and any placement of the first plain line are involved; the file passes through a fixed header with uninitialised bytes, the text is cut into pieces of 198 bytes, and the lines that are added move with the text.", "anchors": ["crashmail/mb_msg.c: msg_importfunc, msg_WriteMSG, msg_ExportMSGNum, msg_ReadCR", "crashmail/memmessage.c: mmAddLine, ProcessKludge"]}
{"id": "C86", "title": "Lookups in a V7+ nodelist agree with the nodelist", "statement": "With a V7+ nodelist, an address is found exactly when the index has an entry for it, at the position the entry gives, whatever was looked up before; hub and region of an address, or of the node of a point, are those which the nodelist has for it, and an address without entry has none. A damaged nodelist leads to an error and to nothing worse.", "quantifier": "every V7+ nodelist (any number of levels and records), every address with a zone, both sizes of long, both kinds of char, every sequence of lookups", "why_tests_cant": "All trees of index records, and machines other than the one the tests run on.", "anchors": ["src/crashmail/nl_v7p.c:v7p_findoffset", "src/crashmail/nl_v7p.c:v7p_gethubregion", "src/crashmail/nl_v7p.c:v7p_unpack", "src/crashmail/nl_v7p.c:v7p_nlStart", "src/crashmail/nl_v7p.c:v7p_nlCheckNode", "src/crashmail/nl_v7p.c:v7p_nlGetHub", "src/crashmail/nl_v7p.c:v7p_nlGetRegion"]}
{"id": "C87", "title": "External commands are given the message as it is", "statement": "A filter command EXECUTE is run once with its placeholders replaced by the fields of the message. A file asked for with %r or %R is a mail: its header lines are sender, receiver, subject, date, message identification and reply of the message and its control lines, its text are the other lines of the message in order, broken only where a line has 78 bytes or more, at the last space; breaking takes away nothing but spaces. A file asked for with %m is the message as it is stored in a *.msg area. When the command has been run, these files are gone and nothing else was changed. No field of the message can end the header, become part of the text, or become a command of its own.", "quantifier": "all messages, AKA lists, command lines, temporary names, disks and external programs", "why_tests_cant": "The text is cut by a loop with three positions, run for every chunk of the message, over lines of every length; tests have short lines and friendly subjects.", "anchors": ["crashmail/filter.c: Filter_Execute", "crashmail/misc.c: WriteRFC, MakeRFCAddr, WriteMSG, ExpandFilter"]}
{"id": "C88", "title": "Every line of a request to AreaFix is answered by what has been done", "statement": "Each line of a request of an authorised node up to the tear line is carried out and answered once, in the order of the lines: a line that names areas links the node to, or removes it from, exactly the areas that fit the name and that the rules allow (access to the group, bans, mandatory areas), and the answer says for each what happened; an area that exists nowhere is ordered from the first node in whose list it is found, or answered as unknown; rescans are announced with the number of messages; a command with a percent sign changes the setting it names and no other. The reply consists of exactly these answers, and the lists asked for are sent. The commands for other nodes that follow from it are mailed to the AreaFix of those nodes with the password for it. If there is nothing to do, the reply says so, and only then.", "quantifier": "all configurations, environments, requests of nodes with the right password, and numbers of handler levels", "why_tests_cant": "a request combines any number of lines with any set of areas, links, groups, flags and lists; each line changes the configuration the next one works on", "anchors": ["src/crashmail/areafix.c: AreaFix", "src/crashmail/areafix.c: afAddLine", "src/crashmail/areafix.c: AddArea", "src/crashmail/areafix.c: afSendMessage", "src/crashmail/areafix.c: RemoveDeletedAreas", "src/crashmail/areafix.c: SendRemoteAreafix"]}
{"id": "C89", "title": "A message written with CrashWrite is tossed as the message that was asked for", "statement": "The packet a run of CrashWrite leaves behind is a new file; nothing that exists is overwritten. A receiver that accepts packets between the two systems finds exactly one message in it. It is a netmail between the addresses given, or an echomail in the area given with the sender as its origin; it has the names, the subject, the time, the flags and the identifier given, and its text consists of the lines of the text file, in order, between the lines the program adds. There is no packet exactly if the command line is not understood, an address is invalid or the text file is missing. Arguments may come in any order, their names in any case; the last of a name counts.", "quantifier": "all command lines, times, disks, text files and receiving configurations", "why_tests_cant": "the packet is read by another program; the text file has any line ends and line lengths and is read in pieces of 99 bytes", "anchors": ["src/tools/crashwrite.c: main", "src/crashmail/pkt.c: ReadPkt", "src/oslib_linux/osfile.c: osFGets"]}
{"id": "C90", "title": "CrashExport lists the areas CrashMail has", "statement": "For every configuration CrashMail accepts, the list CrashExport writes has one line for each area CrashMail has, in the same order, except for unconfirmed areas, templates for new areas, areas outside the groups asked for, and the kinds of areas the format has no place for. The line shows the name, the place, the address, the description, the group and the linked nodes of the area as CrashMail knows them. A list in the format for forward requests, read by AreaFix, offers exactly the listed echomail areas. The format is the one named, in any case; other words are refused.", "quantifier": "all configuration files, formats and groups", "why_tests_cant": "CrashExport reads the configuration with a loop of its own; the two programs have to agree on every file, with every order of lines, quoting and length of words", "anchors": ["src/tools/crashexport.c: main", "src/tools/crashexport.c: writearea", "src/crashmail/config.c: ReadConfig", "src/crashmail/areafix.c: FindForward"]}
{"id": "C91", "title": "Bundles are unpacked with the packer that recognises them", "statement": "A bundle is unpacked with the first configured packer whose recognition pattern the beginning of the bundle fits, where ? stands for any byte, $ with two hexadecimal digits for the byte with that number, and any other character for itself. If there is none, no packer is run.", "quantifier": "all bundles of any length and contents, and all lists of packers and patterns", "why_tests_cant": "the pattern is read byte by byte next to the file; whether each combination of pattern and file gives the right answer, also at the end of the file, is a statement about all of them", "anchors": ["src/crashmail/toss.c: DetectPacker", "src/crashmail/toss.c: Compare", "src/crashmail/misc.c: hextodec"]}
{"id": "C92", "title": "Received bundles are not lost", "statement": "A bundle that is not empty disappears from the inbound only after its packer has unpacked it successfully, and then every packet that was unpacked has been handled to the end or been kept as a bad file. Otherwise the bundle is still there under its name, or complete as a bad file. While it is being tossed it is always complete under one of the two names. Bad files from before are not lost.", "quantifier": "all bundles, packers, results of the commands run, contents of the temporary directory, failures of disk operations, and moments at which the program is stopped", "why_tests_cant": "failures of single disk operations and stopping at a certain moment can be tested for a few cases only; the claim is about every combination", "anchors": ["src/crashmail/toss.c: TossBundle", "src/crashmail/toss.c: TossDir", "src/crashmail/toss.c: TossFile", "src/crashmail/pkt.c: ReadPkt", "src/crashmail/misc.c: BadFile", "src/oslib_linux/osmisc.c: osExecute"]}
{"id": "C93", "title": "CrashStats reports what CrashMail has counted", "statement": "For a statistics file written by CrashMail, CrashStats shows the period, one line for every area that is counted and is in a group asked for, with its name, the dates of the first and last message, and the numbers of messages, messages a day and duplicates (or the numbers for each of the last seven days), in the order asked for; then the totals of these areas; then every node in the order of addresses with the numbers and sizes of the messages sent and received. Other files are refused.", "quantifier": "all statistics files CrashMail can write, all orders, groups and other options, all calendars and sorting algorithms", "why_tests_cant": "two programs share a binary format that each declares for itself; every number has to be found at its place and shown under its heading for every file", "anchors": ["src/tools/crashstats.c: main", "src/tools/crashstats.c: CalculateAverage", "src/tools/crashstats.c: Sort", "src/tools/crashstats.c: unit", "src/crashmail/stats.c: WriteStats"]}
{"id": "C94", "title": "CrashMaint maintains the areas CrashMail has, with their limits", "statement": "Run with the configuration of CrashMail, CrashMaint maintains every area that has messages and was asked for, once, in the order of the configuration, at the place and in the format CrashMail uses and with the limits that are given for this very area. Templates, areas without messages and areas that were not asked for are left alone, and no file but the messages of the maintained areas is touched.", "quantifier": "all configuration files CrashMail accepts, all patterns and options, all disks, all failures of disk operations and all moments the program can be stopped at", "why_tests_cant": "two programs read one file with separate parsers; a limit that is attached to a wrong area deletes messages for good, and which files must not change can only be stated for all files", "anchors": ["src/tools/crashmaint.c: ReadConfig", "src/tools/crashmaint.c: main", "src/crashmail/config.c: ReadConfig"]}
{"id": "C95", "title": "CrashGetNode shows what the nodelist says about a node", "statement": "Asked for a node, CrashGetNode finds the first line that lists it in any of the nodelists and shows its region and hub, the keyword it is listed with, and name, location, sysop, phone number, speed and flags, each under its own name. If no nodelist has the node it says so. No line of a nodelist makes it leave its buffers.", "quantifier": "all nodelists, all addresses, all lines with any fields", "why_tests_cant": "the fields are found by position in a line; tests use lines in which every field is filled, and the result depends on two programs agreeing on an index", "anchors": ["src/tools/crashgetnode.c: main", "src/tools/crashgetnode.c: strip", "src/cmnllib/cmnllib.c: cmnlFindNL", "src/tools/crashlist.c: ProcessList"]}
{"id": "C96", "title": "CrashListOut lists the mail that waits, and nothing else", "statement": "CrashListOut shows one line for each file in an outbound directory, or in a directory for points in it, that is mail for a node matching the pattern, and no other lines, sorted by address. Each line has the flavour, the address of the node, the date of the file, the number and size of the files to be sent (or the number of requests) and the name of the file. With VERBOSE every file named in a flow file follows with its size and what happens to it once it is sent, and every request. The last line shows the sums of the flow files and of the requests.", "quantifier": "every outbound directory with any number of files in any order, names in upper and lower case, flow files and requests of any length, every pattern, every zone, every file size", "why_tests_cant": "addresses come from hexadecimal file names in two kinds of directories, sizes from files named in other files; a test has one directory, and nobody counts the lines of a full outbound directory", "anchors": ["src/tools/crashlistout.c: main, scandir_outbound, addentry, DisplayFlow, DisplayReq, DisplayPkt, PrintFlowSize, PrintReqNums, sortlist", "src/shared/path.c: MakeFullPath, GetFilePart"]}
{"id": "C97", "title": "CrashListOut understands the file names CrashMail writes", "statement": "The flow file and the netmail packet that CrashMail makes for a node, in every flavour, have names that CrashListOut takes as mail of that flavour for exactly that node, for nodes and for points; such a file for a node asked for is shown.", "quantifier": "every node with every net, node and point number, every flavour, every outbound directory", "why_tests_cant": "two programs have to agree on 2^64 names; tests try a few addresses", "anchors": ["src/crashmail/outbound.c: MakeBaseName, AddFlow", "src/tools/crashlistout.c: addentry, hextodec"]}
{"id": "C98", "title": "CrashList takes the newest issue of each nodelist asked for", "statement": "CrashList writes an index of the nodelists its configuration asks for, in that order and with the zones given there. For each name it takes the file with exactly this name, or else the newest of the issues in the directory, that is of the files whose name is the name asked for, in upper or lower case, with a point and three digits. It says which file it takes, or that there is none or that it cannot be read. Looking up an address afterwards finds it exactly if one of these nodelists has it.", "quantifier": "every configuration file with comments, blank lines, any spacing, either kind of line end; every directory with any number of files in any order and any dates", "why_tests_cant": "which file is chosen depends on all the other files in the directory, their order and their dates; a test has one directory", "anchors": ["src/tools/crashlist.c: main, FindList, scandirfunc, isnodelistending, ProcessList", "src/cmnllib/cmnllib.c: cmnlFindNL"]}
{"id": "C99", "title": "CrashMail does what its command line asks for", "statement": "Every command on the command line is carried out, whatever the order of the options and the case of their names; an option given twice has the last value. A command line with an unknown word or a missing value does nothing at all and ends with code 10. The exit code is 0 or 10, and with 10 no command has been begun.", "quantifier": "every list of words, every value of the environment variable, every behaviour of the commands", "why_tests_cant": "there are 21 options, so millions of combinations, and any order; a test has a few command lines", "anchors": ["src/crashmail/crashmail.c: main, CleanUp", "src/shared/parseargs.c: parseargs"]}
{"id": "C100", "title": "CrashMail works only while it holds the lock of the configuration", "statement": "No file is changed before the lock file has been made and none after it has been removed; while there is a lock file of another program nothing is changed at all. When the program ends, in whatever way it ends by itself, the lock is free again. LOCK takes the lock and leaves it; UNLOCK removes it; neither changes anything else.", "quantifier": "every configuration name, every behaviour of the commands, every failure of disk operations, every moment at which the program is stopped, every interleaving with another run", "why_tests_cant": "the time between releasing the lock and the end of the program is a few milliseconds; a test that starts two programs practically never hits it", "anchors": ["src/crashmail/crashmail.c: main, LockConfig, UnlockConfig, CleanUp, Init, Free", "src/crashmail/dupe.c: CloseDupeDB"]}
{"id": "C101", "title": "Several programs can write to one JAM area at the same time", "statement": "Every message a program has reported as written to a JAM area is in the area afterwards, once, with a number of its own and behind what was there, whatever other programs write to the area at the same time; and opening an area never loses what it holds.", "quantifier": "every number of programs, every list of messages of each of them, every order in which their steps are mixed, including time-outs while waiting for the lock and bases that are closed and opened again", "why_tests_cant": "whether two programs meet between opening and locking depends on the scheduler; a test sees one order of steps out of astronomically many", "anchors": ["src/crashmail/mb_jam.c: jam_openbase, jam_importfunc", "src/jamlib/mbase.c: JAM_OpenMB, JAM_CreateMB, JAM_LockMB, JAM_UnlockMB, jam_Lock, jam_Open", "src/jamlib/message.c: JAM_AddMessage"]}
{"id": "C102", "title": "A packet of JAM subfields returns what was put into it", "statement": "For every list of subfields added to a packet, and whether or not memory is short, a call succeeds exactly if there is memory for the field; reading the packet returns exactly the accepted fields, in order and unchanged; freeing it frees everything that was allocated; and no call leaves the memory it owns.", "quantifier": "every list of subfields, every outcome of every allocation, every packet read before", "why_tests_cant": "allocations practically never fail in tests, and the defect needs one to fail at the twenty-first field and the next one to succeed", "anchors": ["src/jamlib/subpack.c: JAM_NewSubPacket, JAM_PutSubfield, JAM_GetSubfield, JAM_GetSubfield_R, JAM_DelSubPacket", "src/crashmail/mb_jam.c: jam_addfield"]}
{"id": "C103", "title": "Lists and texts sent on command reach exactly the right people, and a removed area is gone and announced", "statement": "SENDLIST, SENDQUERY, SENDUNLINKED, SENDHELP and SENDINFO with ALL send one reply to every node that wants notifications, in the order of the configuration, and with an address to the node with that address; each is addressed to the operator of the node and shows the list of exactly its areas, the help file as it is, or what is configured for it; an unknown node is an error and nothing is sent. REMOVE takes exactly the area of that name out of the configuration and tells each of its links, in the way it wants it, and nobody else; an unknown area is an error.", "quantifier": "every configuration with any number of nodes, areas and links, every argument, every help file, whatever becomes of the messages", "why_tests_cant": "who is told depends on three independent flags of each node and on the links of each area; a test has one configuration, and the buffer overflows only for long names", "anchors": ["src/crashmail/crashmail.c: SendAFList, RemoveArea", "src/crashmail/areafix.c: DoSendAFList, rawSendHelp, rawSendInfo, rawSendList, SendRemoveMessages, RemoveDeletedAreas"]}
{"id": "C104", "title": "An area that is created gets the settings it should have, and files of its own", "statement": "If a message comes in for an unknown area, or an area is ordered from another node, the area that is created has the name asked for and the settings of the default area for the group of the node it is created for: path with the name filled in, message base, limits, flags and description, the latter taken from the lists of areas of the node if it is there. The node is linked as feed, the nodes of the default area are linked as there, the nodes that get all areas of the group are linked, read-only where that is configured, and nobody else. The area can be used at once if the node may create areas and waits for confirmation otherwise. Its files belong to no other area, so that the configuration can be used afterwards.", "quantifier": "every configuration, every message or request, every list of areas", "why_tests_cant": "the settings come from five places, and two names collide only after their special characters have been replaced; a test creates one area", "anchors": ["src/crashmail/handle.c: HandleEchomail, AddArea, AddTossNode, MakeDirectory, GetDescription", "src/crashmail/areafix.c: AreaFix", "src/crashmail/config.c: CheckConfig"]}
{"id": "C105", "title": "Lists of areas tell the traffic of each area", "statement": "The last column of a list of areas, headed KB/week, tells how many KB a week come in the area, from the statistics of the last days; if it is unknown, there is a question mark.", "quantifier": "every set of counters, every list", "why_tests_cant": "the number depends on eight counters, the age of the area and the day of the last run; tests have one history", "anchors": ["src/crashmail/areafix.c: CalculateWeekKB, rawSendList"]}
{"id": "C106", "title": "Remapping and masquerading change what they should and leave the rest of a message alone", "statement": "REMAP sends a netmail to the name and address told, where a star keeps what was there, says so at its end together with the old recipient, and changes nothing else; the text can still be read line by line. MASQUERADE puts the name and address of this system into the header, the origin line and the control lines that show the address of the sender and keeps every other line as it is, so that nothing in the message tells who has written it.", "quantifier": "every message with any number of lines, every pattern, every configuration", "why_tests_cant": "the lines of a text are cut into blocks by length; what goes wrong depends on the length of names and addresses and on the kind of the last line", "anchors": ["src/crashmail/filter.c: Filter_Remap, Filter_MasqueradeAs, Command_Remap", "src/crashmail/handle.c: isloopmail, ProcessKludge"]}
{"id": "C107", "title": "Senders are told what has become of their messages, and copies are copies", "statement": "A bounced message comes back to its sender, once, with the reason, its header and, unless only the header is wanted, its whole text. A receipt is sent once for a message that asks for one and has been stored, and names the message. An audit is sent once and tells the system the message has really been sent to. COPY stores the message as it is, with the name of its area, and the message itself goes on as it was; an unknown area does nothing.", "quantifier": "every message of usual lengths, every configuration with a route, every reason, every outcome of storing", "why_tests_cant": "the address in an audit is looked up again, separately from the one that is used; they differ only for some messages and priorities", "anchors": ["src/crashmail/handle.c: Bounce, AnswerReceipt, AnswerAudit, HandleNetmail", "src/crashmail/filter.c: Filter_Copy, Command_Copy"]}
{"id": "C108", "title": "What is written in the configuration file is what is configured", "statement": "Every line of a configuration file that is written as the documentation describes sets exactly what the documentation says: names of files, directories and commands, sizes, modes and switches, bounce and file attach patterns, flavour changes, packers, the own addresses with their domain and SEEN-BY lists, nodes with all their switches and settings, area lists, routes, filters with their commands, and areas with their kind, message base, links (abbreviated addresses included), bans, limits and switches. It does so in upper or lower case, with or without quotes, with blanks, comments and empty lines between, with LF or CR LF, and independently of the other lines. Nothing else is changed by the line. A line that begins with an unknown word makes the program refuse the file.", "quantifier": "all configuration files made of lines of the documented form, of any number, in any order, with all values; for the refusal all words that are no keyword", "why_tests_cant": "There are about ninety keywords with their own arguments, each allowed in any combination with every other, and the state in which a line is read depends on all lines before; tests try some files", "anchors": ["src/crashmail/config.c:ReadConfig", "src/crashmail/config.c:CorrectFlags", "src/crashmail/node4dpat.c:Parse4DPat", "src/crashmail/node4dpat.c:Parse4DDestPat", "src/crashmail/node4dpat.c:Parse2DPat", "src/shared/jbstrcpy.c:jbstrcpy", "src/shared/jbstrcpy.c:jbstrcpyrest", "src/shared/parseaddress.c:Parse4DTemplate", "doc/example.prefs", "doc/filter.txt"]}
{"id": "C109", "title": "Filter statements mean what the documentation says", "statement": "A statement of a filter, like FROMNAME=\"John*\", SUBJECT|word, TOADDR=\"2:221/*\", TEXT|word, KLUDGES|word, TYPE=\"ECHOMAIL\", FROMLOCALPOINT or EXISTSCFG_TOADDR=FALSE, is true of a message exactly if the message has the property that the documentation gives for that variable, compared without regard to case. = matches a pattern, | searches a word. Patterns match the whole field, words anywhere in the text and only in lines that are kludges or are not kludges, address patterns by their parts, and the answers about local points, configured nodes and nodelists are those of the configuration and the nodelist. A filter acts on exactly the messages for which its expression of such statements is true.", "quantifier": "all messages with all texts, configurations, nodelists, variables, operators and patterns of the documented form, and all expressions of them", "why_tests_cant": "The value depends on the whole text of the message in any division into pieces, on the search algorithm and on the configuration; tests try some messages and words", "anchors": ["src/crashmail/filter.c:Filter", "src/crashmail/filter.c:filter_evalfunc", "src/crashmail/filter.c:filter_comparetext", "src/crashmail/filter.c:filter_comparenode", "src/crashmail/filter.c:filter_comparestring", "src/crashmail/filter.c:filter_comparebool", "src/crashmail/filter.c:bmfind", "src/crashmail/filter.c:CheckFilter", "doc/filter.txt"]}
{"id": "C110", "title": "What is stored of subjects, loop-mails and bad messages", "statement": "With STRIPRE, what is stored of the subject is what is left when all marks Re:, Re^n: and Re[n]: at its front are taken off, in any case, with the blanks after them; without it the subject is stored as it is, and copies for other systems always have the original subject. A loop-mail is stored in the BAD area with mode LOG+BAD only; of its text only the kludges are stored, visibly, and no line of what was written in it. In front of a message in the BAD area a note tells the addresses or the area, and the reason.", "quantifier": "all subjects, messages, texts with lines of any number, and configurations", "why_tests_cant": "Marks can be repeated in any number and mixture, and that no written line of any text is stored cannot be settled by looking at some texts", "anchors": ["src/crashmail/handle.c:HandleMessage", "src/crashmail/handle.c:HandleEchomail", "src/crashmail/handle.c:HandleNetmail", "src/crashmail/handle.c:WriteBad", "src/crashmail/handle.c:StripRe"]}
{"id": "C111", "title": "A file that could not be given to the mailer at once is given to it later", "statement": "If a file of mail cannot be entered in the flow file of its node, a file with the same name and .orphan is left that says for which node, in which flavour and with which mark it was to be entered. When such a file is found in a later run and the node is not busy, the file is entered in the flow file for that node and flavour, once and with that mark; lines that were there stay. The .orphan file is removed only after that. If the node is busy nothing is touched. Also .orphan files written by hand are understood, in upper or lower case and with any blanks.", "quantifier": "all disks, nodes, flavours, marks, file names that fit, contents of flow files, failures and interruptions at any point", "why_tests_cant": "It takes two runs with a busy node or failing disk in between, and interruptions at every point of both; the flow file may have any contents", "anchors": ["src/crashmail/outbound.c:MakeOrphan", "src/crashmail/outbound.c:HandleOrphan", "src/crashmail/outbound.c:doAddFlow", "src/crashmail/outbound.c:LockBasename"]}
{"id": "C112", "title": "Attached files travel with their message, and refused netmails are sent back with the reason", "statement": "When a netmail with the attach bit is passed on, each file named in its subject (names separated by blanks or commas, either kind of directory separator) is entered exactly once, in order and before the message, for the node the message goes to and with the flavour of the message. A file of a tossed message is looked for in the inbound only, whatever directory the sender names, and is moved to the packet directory if possible; a file of a message written here is copied and only the copy is marked for deletion. The subject sent has the bare names. A message without the bit touches no file. A netmail is sent back instead exactly when its node is not in the nodelist, its point of this system is not configured, or file attaches to its destination are not allowed, and the text tells which.", "quantifier": "all subjects up to the size of the field, messages, configurations, routes and outcomes of file operations; loop checking off and no audit answer asked for in the theorem about the whole step", "why_tests_cant": "The subject is chosen by strangers; the number of names, their directories and the outcomes of the file operations combine without bound.", "anchors": ["src/crashmail/handle.c: HandleNetmail", "src/shared/jbstrcpy.c: jbstrcpy", "src/shared/path.c: GetFilePart, MakeFullPath"]}
{"id": "C113", "title": "A run removes what it tossed from the inbound, and nothing else", "statement": "After a successful run, exactly the packets and bundles that were found in the directory have been removed; after TOSSFILE exactly the file named. If a file could not be tossed or the run was broken off, nothing is removed. At no moment another file is removed or changed.", "quantifier": "every directory, every contents, every effect of tossing, every point at which the program is stopped, failing or not", "why_tests_cant": "the names are put on a list with a fixed width while tossing and used only at the end; which of them are there depends on all files before", "anchors": ["src/crashmail/safedel.c: SafeDelete, ProcessSafeDelete", "src/crashmail/toss.c: TossDir, TossFile"]}
{"id": "C114", "title": "Each event is one line of the log", "statement": "The log file has one line for each event whose level is at most the configured one, in the order of the events and behind what was in the file before: a letter for the kind of the event, date and time, and the text, indented for messages that arise from others. Other events leave no trace. At the end of a run there is a line for each area with new messages or duplicates, with their numbers, and the totals.", "quantifier": "every sequence of events, levels, times, names and numbers, every level configured", "why_tests_cant": "names come from messages of other systems and are put into texts that are formats of the C library", "anchors": ["src/crashmail/logwrite.c: LogWrite", "src/crashmail/toss.c: LogTossResults", "src/crashmail/scan.c: LogScanResults, ScanHandle", "src/crashmail/crashmail.c: AfterScanToss"]}
{"id": "C115", "title": "Packets of an interrupted run are not sent", "statement": "If a run was interrupted or failed, the packets it was making are removed before the next run begins, and no other file is touched; the packets that are sent afterwards are those of the new run. A packet that was never finished is not sent in any case.", "quantifier": "every disk, every configuration with a directory of at most 99 characters, every failing operation, every moment at which the run is stopped", "why_tests_cant": "the files are only there after a crash in the middle of a run, and a packet that is cut off looks like any other until it is read by the receiver", "anchors": ["src/crashmail/crashmail.c: BeforeScanToss", "src/crashmail/pkt.c: FinishPacket", "src/crashmail/outbound.c: PackFile", "src/crashmail/misc.c: IsNewPkt"]}
{"id": "C116", "title": "The counters of a node count its messages", "statement": "For every node, the counters of received and sent echomails and netmails, of their bytes and of duplicates grow by exactly the messages of each kind that the run received from it or sent to it; the counters of other nodes and everything else stay as they are.", "quantifier": "every list of nodes, every sequence of messages received, handled and sent, every size, wrapping at 2^32", "why_tests_cant": "counting happens at six places in three files; a test of one of them sees the right number, and only the sum over a run shows that two of them count the same message", "anchors": ["src/crashmail/pkt.c: ReadPkt, WriteEchoMail, WriteNetMail", "src/crashmail/handle.c: HandleEchomail, HandleNetmail"]}
{"id": "C117", "title": "The totals of a run account for every message", "statement": "After a run, the totals and the numbers of messages and duplicates of each area tell what was done: each message is counted once, as refused, as a duplicate, as a new message of its area or as routed; every copy that is written to a packet and every message that is stored in an area is counted; and counting does not change what is done.", "quantifier": "All runs over any messages, configurations, filters, histories of duplicates and results of the outside world", "why_tests_cant": "The counters are increased at a dozen places on different paths through the handling of echomail and netmail; a test sees one path at a time, and nothing tells a test that the sums over all paths add up.", "anchors": ["src/crashmail/handle.c: HandleEchomail, HandleNetmail, WriteBad", "src/crashmail/pkt.c: ReadPkt, WriteEchoMail, WriteNetMail", "src/crashmail/toss.c: LogTossResults", "src/crashmail/crashmail.c: toss_read, toss_bad, toss_route, toss_import, toss_dupes, toss_written"]}
{"id": "C118", "title": "Replies refer to the right messages after maintenance of a *.msg area", "statement": "After CrashMaint has deleted and renumbered the messages of a *.msg area, a message that referred to another one by its number (as a reply to it, or to its next reply) refers to the same message under its new number, if both are left.", "quantifier": "All directories of messages, all limits and modes, and all points at which operations on files other than renaming fail", "why_tests_cant": "Whether a link is right after renumbering depends on which numbers below it were free or freed; a test with an area without gaps does not see the difference.", "anchors": ["src/tools/crashmaint.c: ProcessAreaMSG", "src/shared/storedmsg.h: struct StoredMsg"]}
{"id": "C119", "title": "The tools do what their command lines say", "statement": "CrashStats, CrashListOut, CrashGetNode, CrashExport, CrashMaint and CrashList take their arguments in any order, by name in upper or lower case or, where that is allowed, by place; run with exactly the values given and the documented defaults; refuse command lines with superfluous words or without what is needed; and report by their exit code whether they succeeded.", "quantifier": "All command lines, all values of the environment variables, and all files", "why_tests_cant": "The names and the places of the arguments can be combined in arbitrarily many ways, with repetitions; tests try a few.", "anchors": ["src/shared/parseargs.c: parseargs", "src/tools/crashstats.c: main", "src/tools/crashlistout.c: main", "src/tools/crashgetnode.c: main", "src/tools/crashexport.c: main", "src/tools/crashmaint.c: main", "src/tools/crashlist.c: main"]}
{"id": "C120", "title": "The log keeps the lines of all runs", "statement": "What a run of CrashMail writes to the log file stays there: after any number of runs, the log is what it contained before followed by the lines of the runs, in the order in which they began, complete for every run that ended regularly and up to some point for a run that was killed. Runs that are started at the same time do not spoil each other's lines, because they wait for the lock of the configuration.", "quantifier": "every history of any number of runs that wait for the lock, open the log, write lines, end, fail or are killed at any moment, with any interleaving and any moments at which the C library writes its buffers; every content of the log before", "why_tests_cant": "The loss depends on the moment at which a second run opens the log: it must be between the removal of the lock and the end of the first run. Tests run one program at a time.", "anchors": ["src/crashmail/logwrite.c: OpenLogfile, CloseLogfile, LogWrite", "src/crashmail/crashmail.c: Init, Free, CleanUp, LockConfig, UnlockConfig", "src/oslib_linux/osfile.c: osOpen, osSeek"]}
{"id": "C121", "title": "Messages are stored in the base of their own area, also when areas are removed and created during the run", "statement": "Every message for an existing area is stored in the message base of this area (JAM, or the directory of *.msg files, which is made if it does not exist), also if AreaFix removes areas and new areas are created in the same run; no stored message is overwritten by another. At the end of the run, CrashMail links the replies in exactly the areas that exist and have got messages, and reads nothing that was freed.", "quantifier": "every sequence of areas created and removed and of messages stored in a run; every choice of addresses by the allocator; every limit of open message bases; bases that cannot be opened", "why_tests_cant": "Whether anything goes wrong depends on the address which the allocator gives to a new area after the removal of another one. A test sees one allocator in one state.", "anchors": ["src/crashmail/mb_jam.c: jam_getarea, jam_importfunc, jam_afterfunc, jam_linkmb", "src/crashmail/mb_msg.c: msg_getarea, msg_GetHighLowMsg, msg_importfunc", "src/crashmail/areafix.c: RemoveDeletedAreas, AreaFix", "src/crashmail/handle.c: AddArea"]}
{"id": "C122", "title": "The help of a tool names exactly its arguments", "statement": "If a tool is asked for help, it lists every argument it accepts and no other, and says for each whether a value follows, whether the keyword can be left out, and whether the argument has to be given. A user who reads the text learns exactly the table by which the tool understands its command line.", "quantifier": "all seven tools; moreover every table of arguments whose names have up to 47 characters without blanks, line ends and brackets and whose switches are optional and given by name", "why_tests_cant": "The help is text for people; a test compares it with a copy of itself. That it says the same as the parser accepts is a relation between two functions, for every table.", "anchors": ["src/shared/parseargs.c: printargs, parseargs", "src/tools/crashwrite.c: args", "src/tools/crashstats.c: args", "src/tools/crashlistout.c: args", "src/tools/crashgetnode.c: args", "src/tools/crashexport.c: args", "src/tools/crashmaint.c: args", "src/tools/crashlist.c: args"]}
{"id": "C123", "title": "Messages written with CrashWrite are not taken for duplicates of each other", "statement": "Every message written with CrashWrite gets a MSGID that no other message of the same address has, so that no system that checks for duplicates drops it.", "quantifier": "every history of any number of runs of CrashWrite into any directories and of packets being taken away by a tosser, at any times; every database of duplicates", "why_tests_cant": "It depends on the time at which a packet is taken away relative to the second in which the next one is written. A test that writes two messages finds two different MSGIDs, because the first packet is still there.", "anchors": ["src/tools/crashwrite.c: main", "src/crashmail/dupe.c: CheckDupe"]}
{"id": "C124", "title": "A command line that is refused gets the message about what is wrong with it", "statement": "A tool prints nothing about its command line exactly if the command line makes sense, and otherwise one of three messages: that the last word is the name of an argument that needs a value (with this name), that a word is unknown (with the first word that is neither a name nor has a place), or that an argument has to be given (with the first one that is missing). The message is true of the command line, at most one message is, and no other is printed.", "quantifier": "every table of arguments with different names, every command line in which arguments that can be given by place are named before the words without a name", "why_tests_cant": "The message depends on all words and their order; tests try single mistakes and cannot exclude that a message blames the wrong argument or that a line with a fault is accepted.", "anchors": ["src/shared/parseargs.c: parseargs", "src/tools/crashstats.c: main", "src/tools/crashexport.c: main", "src/tools/crashwrite.c: main"]}
{"id": "C125", "title": "CrashWrite leaves the whole message or nothing, and says which", "statement": "While CrashWrite runs, and if it is stopped at any moment, no file is changed but one packet that was not there before. If it ends with the exit code for success, this packet holds the whole message. If it ends with the exit code for an error, there is no packet, and the reason is a wrong command line, a wrong address or a file that cannot be opened. No other program finds a part of a message under the name of a packet.", "quantifier": "every command line, every disk, every time, every moment at which the program is stopped and every operation that can fail", "why_tests_cant": "Stopping at every moment, failing operations and every content of the directory cannot be tested; tests run to the end on a disk with room.", "anchors": ["src/tools/crashwrite.c: main", "src/oslib_linux/osfile.c: osOpen, osWrite, osFPrintf, osClose", "src/crashmail/pkt.c: ReadPkt"]}
{"id": "C126", "title": "Lookups are right while the nodelist index is made", "statement": "While CrashList runs, and if it is stopped at any moment, every file but the index is as before, and every lookup in the index that finds a node finds it with the hub and region it has in the finished index, so that it is in a nodelist. Nodes that are in the old and the new nodelists are found all the time.", "quantifier": "every directory with nodelists, every moment at which the program is stopped or another program looks something up, every index and every part of it, every address", "why_tests_cant": "The index is read at any moment while it is written; tests look things up in finished indexes only.", "anchors": ["src/tools/crashlist.c: main, ProcessList, WriteIdx", "src/cmnllib/cmnllib.c: cmnlOpenNL, cmnlFindNL", "src/crashmail/nl_cmnl.c: cmnl_nlCheckNode, cmnl_nlGetHub, cmnl_nlGetRegion"]}
{"id": "C127", "title": "Last-read notes of users of a JAM base", "statement": "What a program notes with JAM_WriteLastRead for a user of a message base is what every program reads with JAM_ReadLastRead for that user, until it is noted anew; the notes of the other users stay as they are. A user without a note is reported as such, and noting something for a user works whether or not the user has a note.", "quantifier": "every file of last-read records with one record for each user, every number of programs, every sequence of opening, reading and writing by them in any order, every user number and every record with this number; for reading, every file at all", "why_tests_cant": "A program remembers the place of the record it read last, while other programs append and overwrite; whether the shortcut is right depends on the whole history of all of them.", "anchors": ["src/jamlib/lastread.c: JAM_ReadLastRead, JAM_WriteLastRead", "src/jamlib/structrw.c: freadjamlastread, fwritejamlastread", "src/jamlib/mbase.c: JAM_OpenMB, JAM_CreateMB", "src/jamlib/jam.h: s_JamLastRead, s_JamBase"]}
{"id": "C128", "title": "Messages to a user of a JAM base are all found", "statement": "A program that looks with JAM_FindUser for the messages to a user, from the beginning and then each time after the last one found, sees every message whose index record has the checksum of the user's name, each once and in order, and no erased message.", "quantifier": "every index file, whole or cut off, every checksum, every message to start from", "why_tests_cant": "The search runs over an index of any length with erased records anywhere; tests use a few.", "anchors": ["src/jamlib/mbase.c: JAM_FindUser", "src/jamlib/structrw.c: freadjamindex", "src/jamlib/message.c: JAM_DeleteMessage, JAM_AddEmptyMessage", "src/jamlib/crc32.c: JAM_Crc32"]}

# Design

Formal model, in Lean 4, of the CrashMail II sources in `/repo/src`. The properties are in
`properties.jsonl`; `MANIFEST.json` maps each of them to the theorems that settle it, with what is
missing in the note. Partial claims have the suffix `_partial` on the main theorem or name the
witness (in namespace `CM.Ex`) of the run that violates the full statement.

## Trusted base

* Lean 4.33.0's kernel. No `native_decide`, no `bv_decide`, no axioms of this project, no `sorry`.
* Axioms: every theorem depends on a subset of `propext`, `Classical.choice`, `Quot.sound`
  (checked by `vcheck` and with `#print axioms`).
* The reading of the C sources: every definition of the model has a comment with the file and the
  lines it models and the simplifications made. The C code was read, never run.
* Platform: LP64, two's complement, signed `char` unless a parameter says otherwise (`JamEnv`),
  little-endian where structs are written raw, Linux oslib (`src/oslib_linux`), C locale for
  `tolower`/`isdigit`.
* Memory: `osAlloc` succeeds, unless the text of a definition says otherwise.

## Layout

* `Verif/Base.lean` – bytes, C strings, undefined behaviour.
* `Verif/Model/*.lean` – the model, function by function.
* `Verif/Spec/*.lean` – what the theorems say, without the helpers of the model.
* `Verif/Lemmas/*.lean` – lemmas about the model.
* `Verif/Props/*.lean` – the property theorems, with `example`s and runs (`namespace Ex`) that show
  that the hypotheses can be met, and the witnesses of violated properties.
* `seeded/LOG.jsonl` – mutation tests of the theorems. `failed` names the declarations Lean reports, which may be
  lemmas the theorem of the property is proved with: Lean checks what follows a failed lemma against its statement, so
  the theorem itself is then not listed. An entry with one name may give only the first of several.

## Conventions

* A C string is the `List UInt8` of its bytes before the terminating NUL. A write beyond a buffer, a
  read outside an array, a null dereference, and the use of an uninitialised value are distinct
  outcomes (`UB`) wherever the C code can come to them. A theorem that says what a function returns
  says in particular that it is not one of these.
* Machine integers have their width; wrapping is part of the model.
* Loops that may not end have fuel, and running out of it is a distinct outcome (`stuck`); theorems
  hold for every fuel or show that it suffices.
* Pointers to list nodes become positions or values.

## Message handling

`Model/Handle.lean`, `Filter.lean`, `Areafix.lean` are in a state monad `M` over `HSt` (configuration,
created packets, imported messages, area state). Its results are `ub`, `stuck`, `fail` (an I/O error),
`ok`. What the outside does (imports, nodelist answers, time, other programs) is a parameter `Env`,
over which the theorems quantify.

## Disk

`Model/Disk.lean`: a program is a tree of operations (`Prog`); a disk is a map from path names to
contents (`FS`). `Step` is one step of a program; files are written byte by byte, so that a program can
be stopped (crash, kill) with a part written. `World` says which operations may fail and what other
programs (packers) do. `Through w I Q p fs`: in every state that can be reached `I` holds of the disk,
nothing undefined happens, and if the program ends, `Q` holds. Assumptions: `rename` is atomic and
replaces its target; what was written is on the disk in the order of writing (no reordering by caches);
no other program changes the files meanwhile, except where a theorem says so.

## What is modelled

| source | modelled | not modelled |
|--------|----------|--------------|
| shared/*.c | all (mystrncpy in `Base`) | – |
| crashmail/node4dpat.c | all | Print4DDestPat |
| crashmail/dupe.c, safedel.c, stats.c, nl_cmnl.c, mb_msg.c, mb.c | all | – |
| crashmail/memmessage.c, pkt.c, filter.c, outbound.c | all | allocation failure |
| crashmail/handle.c | all | – |
| crashmail/areafix.c | all | – (CalculateWeekKB apart, in Model/Traffic) |
| crashmail/misc.c | all: patterns, dates, files, flags, text helpers, bad files, WriteRFC, WriteMSG | |
| crashmail/config.c | ReadConfig, CorrectFlags, CheckConfig, UpdateConfig and its writers | messages printed |
| crashmail/toss.c | Compare, DetectPacker, TossBundle, TossDir, the handling of one file of TossFile, LogTossResults | – |
| crashmail/crashmail.c | main (commands as parameters), AfterScanToss, Rescan, SendAFList, RemoveArea, statistics, locks | the log |
| crashmail/mb_jam.c | all | allocation failure, read errors; the slots of open bases are a separate model |
| jamlib | crc32, structrw, subpack, message, mbase (open, create, lock, header), lastread | stdio buffers, read errors |
| crashmail/scan.c, nl_v7p.c | all | – |
| crashmail/logwrite.c | all, with vprintf for the conversions used | failing of fopen and fwrite |
| cmnllib, tools/crashlist.c | all | – |
| tools/crashmaint.c | all | allocation failure |
| tools/crashwrite.c | all | what is printed |
| tools/crashexport.c | writearea, the reading of the configuration, the head of the file, the command line | write errors |
| tools/crashstats.c | all | Ctrl-C, allocation failure |
| tools/crashgetnode.c | all | – |
| tools/crashlistout.c | all | allocation failure |
| oslib_linux | patterns, directory reading, file operations as steps of `Disk` | console, signals beyond `ctrlc` |
| oslib_win32 | – | all |

## Properties

| id | property | model | proof | status |
|----|----------|-------|-------|--------|
| C01 | Printed node addresses parse back to themselves | Print4D, Parse4D, ParsePart over bytes, 32-bit accumulator, 16-bit fields | decimal round trip; simulation of the parser on the printed text | proved |
| C02 | Address comparison is equality with zone 0 as wildcard | Compare4D | case analysis | proved |
| C03 | Node patterns match exactly the nodes they describe | NodeCompare, Compare4DPat | induction on the pattern against a glob relation | partial |
| C04 | Netmail routing uses the first matching route and an address expanded from it | route table lookup, ExpandNodePat | list induction | proved |
| C05 | Mail-flavour changes are decided by the CHANGE table | ChangeType | list induction | proved |
| C06 | Intrusive lists behave as sequences | jbList on a heap of next pointers | refinement: the heap represents a list | proved |
| C07 | Message text accumulation is lossless | mmAddBuf chunks | invariant on chunks; concatenation | proved |
| C08 | The SEEN-BY set never holds a node twice and never loses one | mmAddNodes2DList, mmSortNodes2D | refinement to a finite set; sortedness | proved |
| C09 | SEEN-BY lines written are read back as the same set of nodes | mmMakeSeenByBuf, mmAddNodes2D reader | simulation of the reader on the printed lines | proved |
| C10 | PATH bookkeeping never appends a duplicate tail and preserves earlier hops | AddNodePath, mmAddPath | the tokenizer on the last line | proved |
| C11 | Packet header written is packet header read | CreatePkt header and ReadPkt header | bytewise | partial |
| C12 | A written packet is read back as exactly the messages written | message writer and reader of pkt.c | induction on the messages | partial |
| C13 | Reading a packet is total and memory-safe for every byte string | ReadPkt as a total function on byte strings | bounds of every field; termination measure | partial |
| C14 | Dupe detection catches every repeat within the window | dupe ring with checksums | refinement to the list of the last N entries, over histories | partial |
| C15 | Dupe detection has no false positives | same | same | partial |
| C16 | The dupe database round-trips through its file | dupe file, written through the disk model | byte round trip; crash points | partial |
| C17 | Echomail is never sent back to where it has been | HandleEchomail in the message monad | decision logic over the link list | proved |
| C18 | Echomail reaches every link that has not seen it | same | same | partial |
| C19 | Senders without write permission cannot post | same | same | proved |
| C20 | Every tossed echomail has exactly one disposition | same | enumeration of the ends of a run | proved |
| C21 | Netmail loops are recognised | IsLoopMail | text scan | partial |
| C22 | Bounces cannot cause bounce storms | Bounce, AnswerReceipt, AnswerAudit, AreaFix replies | depth invariant by fuel induction; witness for two systems | partial |
| C23 | Netmail kludges preserve 4D addresses end to end | MakeNetmailKludges, ProcessKludge | round trip | proved |
| C24 | AreaFix changes nothing without the right password | AreaFix | the run up to the password check | proved |
| C25 | AreaFix gives links only to areas the node may have | AreaFix commands | invariant over commands (`Granted`) | partial |
| C26 | AreaFix keeps at most one link per node and area, and touches no other node's links | AreaFix commands | invariant over commands | proved |
| C27 | Mandatory areas cannot be left | AreaFix commands | invariant over commands | proved |
| C28 | AreaFix replies are complete and split within the limit | afAddLine, afRawPrepareMessage, afSendMessage | invariant over lines | partial |
| C29 | Area lists show exactly the areas the node may see | rawSendList | filter and sort specification | proved |
| C30 | Quoted configuration strings round-trip | WriteSafely, jbstrcpy | induction | partial |
| C31 | Tokenizer never overruns the destination and always progresses | jbstrcpy | induction | proved |
| C32 | Configuration rewrite touches only changed entries | UpdateConfig, WriteArea, WriteNode | fold over lines against a relation | partial |
| C33 | Configuration is never lost in a crash during rewrite | UpdateConfig on the disk model | crash points | partial |
| C34 | Filter expressions evaluate as documented | expr_compile, expr_eval | interpreter against the tree | partial |
| C35 | Substring filters find every occurrence | bminit, bmfind | soundness; completeness fails | partial |
| C36 | Wildcard patterns for names and areas | osMatchPattern | induction | partial |
| C37 | A killed message is not processed by later filters and not delivered | Filter, CheckFilter | induction over filters | partial |
| C38 | Bundle names never collide | MakeArcName with its index | invariant over archives, nodes and days | proved |
| C39 | Outbound base names are unique per node | MakeBaseName | injectivity | partial |
| C40 | Flow-file entries are added once | AddFlow | line model of flow files | partial |
| C41 | Inbound mail is removed only after its results are on disk | AfterScanToss, SafeDelete, ProcessSafeDelete | trace property over the disk model | partial |
| C42 | Bad packets are kept under an unused name | BadFile | disk model | proved |
| C43 | Messages stored in a JAM base are read back unchanged | jamlib on byte-array files | representation invariant `JamHolds` over histories | partial |
| C44 | JAM on-disk structures round-trip | structrw.c, subpack.c, crc32.c | bytewise; CRC by its polynomial | proved |
| C45 | MSG import never overwrites a message | msg_importfunc | disk model | proved |
| C46 | MSG export sends each local message once | msg_exportfunc | disk model, histories of runs | partial |
| C47 | Statistics file round-trips | ReadStats, WriteStats | byte round trip | partial |
| C48 | The eight-day history shifts by the number of days passed | shift of the history | list shift | proved |
| C49 | Nodelist index lookup agrees with the nodelist | crashlist, cmnllib | byte-level index | partial |
| C50 | CrashMaint keeps the newest messages and never clobbers while renumbering | ProcessAreaMSG | disk model; `Moved` at every moment | partial |
| C51 | Packing a JAM base loses no undeleted message | ProcessAreaJAM | on top of `JamHolds`; replacement of the files on the disk model | partial |
| C52 | Command-line arguments | parseargs | induction | proved |
| C53 | Path joining | path.c | lists | partial |
| C54 | FidoNet dates round-trip | MakeFidoDate, FidoToTime | digit lemmas; civil calendar | proved |
| C55 | Only one process works on the outbound/configuration at a time | LockConfig, LockBasename as interleaving processes | transition system; violated | partial |
| C56 | File names are classified unambiguously | IsPkt, IsBundle, ...  | lists | proved |
| C57 | Packets are tossed oldest first | TossDir, TossBundle, SortFEList | sorted permutation; order of events | proved |
| C58 | Group access check | MatchFlags | lists | partial |
| C59 | Netmail appended to an existing packet | PackFile appending netmail | packet reader model on the disk | partial |
| C60 | Area paths are unique | CheckConfig | list pairs | proved |
| C61 | Node addresses outside the valid range are rejected | Parse4D | witnesses; partial | partial |
| C62 | Node pattern texts mean what they say | Parse4DPat, Parse4DDestPat | printer for patterns | partial |
| C63 | File-attach references stay in the inbound directory | file-attach names | lists | proved |
| C64 | Stripping blanks only strips blanks | striptrail | lists | partial |
| C65 | Packet passwords are enforced | ReadPkt password check | decision logic | proved |
| C66 | AreaFix requests change no other node's settings | AreaFix commands | invariant over commands | proved |
| C67 | A packet being archived is never lost | PackFile with the archiver | crash points; assumption on the packer | partial |
| C68 | A packet file name tells type and destination | FinishPacket and PackFile names | round trip | proved |
| C69 | Renumbering keeps unsent messages above the high water mark | ProcessAreaMSG | order lemma; violated for some marks | partial |
| C70 | An accepted configuration is consistent | ReadConfig, every line | invariant over the lines | proved |
| C71 | Reading the configuration file is memory safe | ReadConfig, pattern parsers | per function; violated for listed lines | partial |
| C72 | Areas and nodes survive being written to the configuration | WriteArea, WriteNode, ReadConfig | round trip, line by line | partial |
| C73 | A restart gives the same configuration | ReadConfig, UpdateConfig | simulation over the lines of the old file | partial |
| C74 | What messages change is saved and survives a restart | message handling, AreaFix, ReadConfig, UpdateConfig | relation kept by every message, then C73 | partial |
| C75 | Replies in JAM areas are linked | jam_linkmb and the functions it uses, jam_afterfunc | invariant of the chains over the new messages | partial |
| C76 | Open message bases are managed safely | jam_openbase, slots | invariant: used slots = open handles | proved |
| C77 | Messages are exported from JAM areas exactly once | jam_exportfunc, jam_ExportJAMNum | induction over the loop, then over runs | partial |
| C78 | A message in a JAM area comes back as it was | jam_importfunc, jam_ExportJAMNum | round trip, subfield by subfield | partial |
| C79 | A scan exports every waiting message of every area to be exported | Scan, ScanList, ScanDotJam, ScanArea over the JAM export | one rule for the loops, C77 for each area | partial |
| C80 | A rescan sends the messages of an area again, to one node only | Rescan, HandleRescan, jam_rescanfunc, msg_rescanfunc | the loop over the base, then the loop over what it delivers | partial |
| C81 | An echomail reaches every system of a network exactly once | ReadPkt, HandleMessage, HandleEchomail, WriteEchoMail at every system | invariant over the runs of the network; one hop by C11, C12, C14 | proved |
| C82 | A netmail travels along its route and is stored once at its destination | HandleNetmail, WriteNetMail, ReadPkt, a network of systems | one hop forward, the packet round trip of C12, induction over runs | proved |
| C83 | In a connected network with loops an echomail is stored once everywhere | ReadPkt, HandleMessage, HandleEchomail, CheckDupe, WriteEchoMail at every system | invariant over the runs: every neighbour of a system that has had the message has it or a packet is on its way to it; a measure for the end | proved |
| C84 | A system does not store its own message again | as C83 | invariant: the SEEN-BY lines of every packet hold the first system; a run across zones as witness | partial |
| C85 | A message stored in a *.msg area comes back as it was | the stored header with its uninitialised bytes, the text, SEEN-BY and PATH lines in the file, and the reading loop with the lines it adds (`msgData`, `msgReadLoop`, `msgImport`, `msgExportNum`) | the reading loop is shown to cut the text exactly as the specification `pieces` does and to feed the lines, with those added behind the leading control lines, to `mmAddLine`; the effect of the lines is that of the packet round trip (C12); the header by its field offsets | partial |
| C86 | Lookups in a V7+ nodelist agree with the nodelist | nl_v7p.c, with the layout of the machine as parameter | induction over the tree of index records; round trip of the packed text | partial |
| C87 | External commands are given the message as it is | WriteRFC, MakeRFCAddr, WriteMSG, Filter_Execute with the disk | the loops line by line against a relation of line breaking; a separate mail reader; programs on disks for the run | partial |
| C88 | Every line of a request to AreaFix is answered by what has been done | AreaFix with all commands, from the request to reply and configuration | each command against a relation, then induction over lines and chunks; messages handed over tracked through the log | partial |
| C89 | A message written with CrashWrite is tossed as the message that was asked for | CrashWrite from the command line to the packet | text: induction over the pieces read; the packet against the round trips of C11 and C12 and the reader of C13 | partial |
| C90 | CrashExport lists the areas CrashMail has | CrashExport from the configuration file to the list | simulation line by line against the model of ReadConfig; the list read again by AreaFix | partial |
| C91 | Bundles are unpacked with the packer that recognises them | Compare and DetectPacker on the first 40 bytes of the file; reading unset bytes and behind the buffer are distinct outcomes | induction over the pattern against a relational specification of patterns | partial |
| C92 | Received bundles are not lost | ReadPkt, TossBundle and the deletion in the end as programs on the disk that can be stopped anywhere and in which operations fail | invariant of all reachable states, by induction over the list of packets | partial |
| C93 | CrashStats reports what CrashMail has counted | CrashStats from the statistics file to what is printed | round trip with WriteStats; the lines are read back as columns | partial |
| C94 | CrashMaint maintains the areas CrashMail has, with their limits | CrashMaint from the configuration file to the jobs for each area | simulation line by line against the model of ReadConfig; stages of the run by induction over the areas | partial |
| C95 | CrashGetNode shows what the nodelist says about a node | CrashGetNode on the index CrashList made | lookup theorem of C49, then strtok on the fields of the line by induction over the field names | partial |
| C96 | CrashListOut lists the mail that waits, and nothing else | `Model/ListOut` (tools/crashlistout.c), specification `Spec/ListOut` (hexadecimal names, the kinds of mail, what a flow file names) | directory scan as a filter over all files, one entry per file; columns of a row read back as words; line reading as in C95; totals by induction | partial |
| C97 | CrashListOut understands the file names CrashMail writes | `Model/Outbound` (MakeBaseName) and `Spec/ListOut` | the hexadecimal digits are read back; a name determines the node; the file is in the list of C96 | proved |
| C98 | CrashList takes the newest issue of each nodelist asked for | `Model/CrashList` (tools/crashlist.c: configuration, choice of the file, messages) on top of `Model/Nodelist` | invariant of the walk through the directory; the lines by jbstrcpy on words and blanks; lookup theorem of C49 for the index | partial |
| C99 | CrashMail does what its command line asks for | `Model/Main` (crashmail.c main with its options; parseargs from `Model/Search`) | invariant of the parser: the table of options is a function of the options read so far; case distinction in the order of the chain | partial |
| C100 | CrashMail works only while it holds the lock of the configuration | `Model/Main` on the disk of `Model/Disk`, several processes as in `Model/FileOps` | a logic of steps (`Moves`) next to the one of states; the parts are arbitrary programs that leave the lock file alone; executable schedule for the violations | partial |
| C101 | Several programs can write to one JAM area at the same time | `Model/JamShare` (any number of processes, one step per system call) on the base of `Model/Jam` | invariant: the base at the last unlock and the stage of the one process that has the lock; `jam_add` when the lock is released; witnesses for the violations | partial |
| C102 | A packet of JAM subfields returns what was put into it | `Model/SubPack` (array with its real size, blocks counted, every allocation may fail) | invariant of the packet (size 20 * 2^k), induction over the list of fields; violation for every full packet | partial |
| C103 | Lists and texts sent on command reach exactly the right people, and a removed area is gone and announced | `Model/Notify` over the lists and replies of `Model/Areafix` | `notify_sent`: induction over the nodes, each step a reply (C28, C29); `area_removed`: induction over the links; `help_exact_partial`: reading by lines; violations as concrete runs | partial |
| C104 | An area that is created gets the settings it should have, and files of its own | `addArea`, `newArea`, `getDescription`, `makeDirLoop` of `Model/Filter`; `afForward` of `Model/Areafix` | `addArea_setUp`: each setting against `SetUp` in `Spec/NewArea`, the links by the first link of each node; the collision of paths as a concrete run | partial |
| C105 | Lists of areas tell the traffic of each area | `Model/Traffic`: `CalculateWeekKB` on the counters of `Model/Stats` | arithmetic against `perDay`, the specification of C93; the last column by the exact form of the rows (C29) | partial |
| C106 | Remapping and masquerading change what they should and leave the rest of a message alone | `filterRemap`, `filterMasquerade`, `masqLine`, `chunkLines`, `addBufs` of `Model/Filter` | line by line against `Remapped` and `Masqueraded` in `Spec/Readdress`, where lines are determined by the text alone; defects as concrete runs | partial |
| C107 | Senders are told what has become of their messages, and copies are copies | `bounce`, `answerReceipt`, `answerAudit`, `filterCopy` of `Model/Filter`, `importNetmail` of `Model/Handle` | each hands exactly one message to `HandleMessage`, which is compared with `Writes` in `Spec/Answers`; the address in an audit against `routeNetmail` | partial |
| C108 | What is written in the configuration file is what is configured | `rdLine`, `rdLines`, `readConfig` and the functions for the single lines (Model/ReadConfig.lean). The meaning of the lines is specified in Spec/Says.lean from the documentation, without the functions of the model. | The words of a written line are what `jbstrcpy` takes from it one after the other (`Rest`); each keyword is dispatched to its function whatever its case; each relation of the specification is shown to be what that function computes; induction over the lines of the file. | partial |
| C109 | Filter statements mean what the documentation says | `compareStmt` and what it calls: `splitStmt`, the variables, `searchChunk`, `scanBack`, `bmfind`, `osMatchPattern`, `Config.isLocalPoint`, `Config.isNode` (Model/Filter.lean). What each variable means is specified in Spec/FilterVar.lean. | The search loop finds the first occurrence because every step passes over places only where the pattern cannot be; going back from it to the start of its line decides whether that line is a kludge; address patterns are compared by their parts; the value of expressions comes from C34. | partial |
| C110 | What is stored of subjects, loop-mails and bad messages | `stripRe`, `stripSubject`, `importNetmail`, `deliverEcho`, `loopCopy`, `checkLoop`, `badHeader`, `writeBad` (Model/Handle.lean). | The marks are specified by a relation that is shown to determine its result; the lines of the text are those of `IsLines` (C85); the events that are logged are computed for each outcome. | partial |
| C111 | A file that could not be given to the mailer at once is given to it later | `makeOrphan`, `handleOrphan`, `parseOrphan`, `doAddFlow`, `lockBasename` (Model/Pack.lean, Model/FileOps.lean) as programs on the disk. | The words of the line are read as in C108; the program is followed step by step with an invariant of the disk that holds at every point (`Through`), with the contents of the flow file as lines (C40). | partial |
| C112 | Attached files travel with their message, and refused netmails are sent back with the reason | the branch for file attaches of `HandleNetmail`, the reasons for bouncing, and the step that routes a netmail | a relation for the names in a subject and one for what happens to a file; the loop over the subject is matched with them by induction over the names; the reasons are a decision procedure proved equal to three independent conditions | partial |
| C113 | A run removes what it tossed from the inbound, and nothing else | `tossDir`, `tossFile`, `clearInbound` (toss.c, safedel.c) | induction over the list of deletions on every path of the disk program; the list is what toss_order (C57) says | partial |
| C114 | Each event is one line of the log | `formatGo`, `logWrite`, `areaCalls`, `totalCalls`, `scanCall`, `exportCall`, `updateErrorCall` (logwrite.c, toss.c, scan.c, crashmail.c) | records as lists of pieces; the format of the pieces gives their text (induction), then induction over the records | partial |
| C115 | Packets of an interrupted run are not sent | `removeNewPkts`, `pktTempName`, `pktDoneName`, `packFile` (crashmail.c, pkt.c, outbound.c) | the deletions as in C113; the name of a packet that is not finished has no type, so that PackFile does nothing | partial |
| C116 | The counters of a node count its messages | `countEvent`, `countRun` (pkt.c, handle.c: the places at which counters change) | induction over the events of a run; each event adds to one node, found by its address | partial |
| C117 | The totals of a run account for every message | HandleEchomail, HandleNetmail and WriteBad again, returning what they add to the counters (Model/Tally.lean) | An erasure theorem relates them to the functions of the other properties; the specification relates the counts to the effects, by cases over the whole of the handling, and by induction over the messages of the run. | partial |
| C118 | Replies refer to the right messages after maintenance of a *.msg area | ProcessAreaMSG (Model/MsgMaint.lean, as for C50) and the fields ReplyTo and NextReply of the header | Corollary of the theorem on maintenance (C50), with a combinatorial lemma on when a number keeps its place. | partial |
| C119 | The tools do what their command lines say | main of the six tools from the command line on (Model/ToolArgs.lean), parseargs as for C52 | The table of arguments while the command line is read is the one meant for the parts read so far; induction over the parts. | partial |
| C120 | The log keeps the lines of all runs | OpenLogfile, CloseLogfile, LogWrite, LockConfig and CleanUp as events of any number of runs, with the buffers of stdio (Model/LogFile) | invariant over all histories: at most one run has the log open, its position is the end, the log is the concatenation; the violation for all texts | partial |
| C121 | Messages are stored in the base of their own area, also when areas are removed and created during the run | the records of areas by address, AddArea and RemoveDeletedAreas as changes of that map, jam_AreaList, jam_getarea on top of the slots of Model/JamOpen, the loop over jam_AreaList in jam_afterfunc (Model/AreaMem); msg_getarea, msg_GetHighLowMsg and msg_importfunc with the directories that exist (Model/AreaMsg) | invariant over all sequences of operations: every open handle was opened with the path of the record at its address; the violations after any history | partial |
| C122 | The help of a tool names exactly its arguments | printargs with its buffers (Model/PrintArgs), the tables of the tools (Model/ToolArgs, Model/CrashWrite) | a reader of the help as specification; round trip by cutting the text into lines and words | proved |
| C123 | Messages written with CrashWrite are not taken for duplicates of each other | runs of CrashWrite (the loop for the name, Model/CrashWrite) and a tosser as events on the files there are (Model/WriteIds) | a packet stays until it is taken; the number determines the second; the violation joined with the theorem on CheckDupe (C14) | partial |
| C124 | A command line that is refused gets the message about what is wrong with it | parseargs with the messages it prints (Model/ArgMsg) | erasure to parseargs of C52; the words before the fault have parts, so that the table is known (C119); both directions | partial |
| C125 | CrashWrite leaves the whole message or nothing, and says which | CrashWrite as a program on the disk that can be stopped anywhere and in which operations fail (Model/WriteDisk); the bytes are those of Model/CrashWrite (C89) | rules for programs on disks (as C16, C92); runs that end with success on a full disk as reachable states | partial |
| C126 | Lookups are right while the nodelist index is made | CrashList as a program on the disk (Model/ListDisk) with the index of Model/CrashList; lookups of Model/Nodelist | two searches side by side, in a part and in the whole, by induction over the records; rules for programs on disks | partial |
| C127 | Last-read notes of users of a JAM base | `Model/LastRead`: file of records, remembered place for each program, calls in any order | records and bytes side by side; invariant: one record for each user, every remembered place is in the file; induction over the calls; violation for every number of tries | partial |
| C128 | Messages to a user of a JAM base are all found | `Model/FindUser`: the loop over the index, and a reader that calls it again and again | induction over the rounds, for the loop and for the reader; violation for every erased record | partial |

{"claims": [
 {"property": "C01", "status": "proved", "theorems": ["CM.parse4DTemplate_print4D", "CM.parse4D_print4D", "CM.print4D_injective", "CM.print4D_length", "CM.parse4DTemplate_iff"], "note": ""},
 {"property": "C02", "status": "proved", "theorems": ["CM.compare4D_eq_zero_iff", "CM.compare4D_eq_zero_iff_eq", "CM.compare4D_antisymm", "CM.compare4D_lt_iff", "CM.compare4D_trans", "CM.compare4D_eq_not_transitive"], "note": "Total order on addresses with nonzero zones; a zero zone matches any zone, so equality is not transitive there (proved)."},
 {"property": "C03", "status": "partial", "theorems": ["CM.nodeCompare_iff", "CM.nodeCompare_iff_shell", "CM.nodeCompare_dec", "CM.compare4DPat_pattern_iff", "CM.compare4DPat_iff", "CM.compare4DPat_literal", "CM.compare4DPat_net_ignores", "CM.compare4DPat_needs_nodelist", "CM.nodeCompare_ignores_after_star"], "note": "Exact characterisation proved. The shell-glob reading holds for patterns whose * is last; text after * is ignored by the code (witness)."},
 {"property": "C04", "status": "proved", "theorems": ["CM.routeNetmail_first_match", "CM.routeNetmail_none_iff", "CM.routeNetmail_no_direct_point", "CM.expandNodePat_components", "CM.expandNodePat_keywords", "CM.expandNodePat_unknown"], "note": ""},
 {"property": "C05", "status": "proved", "theorems": ["CM.changeType_none", "CM.changeType_last"], "note": ""},
 {"property": "C06", "status": "proved", "theorems": ["CM.jbNewList_holds", "CM.jbAddNode_appends", "CM.jbFreeNode_removes", "CM.jbFreeNode_absent", "CM.jbFreeNum_removes", "CM.jbFreeNum_beyond", "CM.jbFreeList_frees", "CM.jbList_step", "CM.jbList_refines_sequence", "CM.jbFreeNum_at_length"], "note": "Freeing by a position equal to the length dereferences NULL (jbFreeNum_at_length); no caller in the sources does it."},
 {"property": "C07", "status": "proved", "theorems": ["CM.mmAddBuf_appends", "CM.mmAddBufs_concat", "CM.mmAddBufs_fresh", "CM.mmAddBufs_lines"], "note": ""},
 {"property": "C08", "status": "proved", "theorems": ["CM.mmAddNodes2D_visible", "CM.mmRemNodes2DPat_visible", "CM.mmSortNodes2D_sorts", "CM.findNodes2D_iff", "CM.seenBy_history", "CM.seenBy_adds", "CM.mmRemNodes2D_wrong"], "note": "The unused single-entry removal compares the wrong variable (mmRemNodes2D_wrong)."},
 {"property": "C09", "status": "proved", "theorems": ["CM.mmMakeSeenByBuf_lines", "CM.mmAddLine_seenLine", "CM.seenBy_roundtrip", "CM.addSeenby_total", "CM.seenBy_empty_reads_past"], "note": "A received line cut right after the colon makes the reader start past the terminator (seenBy_empty_reads_past)."},
 {"property": "C10", "status": "proved", "theorems": ["CM.addNodePath_shape", "CM.addNodePath_hops", "CM.addNodePath_tail", "CM.addNodePath_idempotent", "CM.addNodePath_total", "CM.mmAddLine_pathLine", "CM.path_roundtrip", "CM.path_empty_reads_before"], "note": "Meaning proved for last lines without quotes, backslashes and words of 40 or more characters; shape, bounds and termination for all lines. An empty received PATH line is read outside the buffer (path_empty_reads_before)."},
 {"property": "C11", "status": "partial", "theorems": ["CM.pktHeader_addresses", "CM.pktHeader_password", "CM.pktHeader_zone_lost", "CM.pktHeader_net_lost"], "note": "Proved for packets from a nonzero zone and not from a point of net 65535; otherwise the destination zone or the origin net is lost (witnesses)."},
 {"property": "C12", "status": "partial", "theorems": ["CM.readPkt_wellformed", "CM.readPkt_inv", "CM.packets_hold", "CM.packet_read", "CM.netmail_roundtrip", "CM.echomail_roundtrip", "CM.writeNetMail_op", "CM.writeEchoMail_op", "CM.readPkt_long_line", "CM.readMsgs_interrupted", "CM.readPkt_no_end"], "note": "Proved for messages whose control lines are complete and whose text contains no control lines of its own (after cutting at 198 characters); long lines, interruption and a missing end violate it (witnesses). Addresses with zone 0 are excluded."},
 {"property": "C13", "status": "partial", "theorems": ["CM.readPkt_total", "CM.readPkt_safe", "CM.readPkt_blank_area", "CM.readPkt_short_kludge", "CM.readPkt_open_origin"], "note": "Termination and bounds of every stored field for all files; memory safety for files whose lines are complete; incomplete AREA, control and origin lines are read outside the buffer (witnesses)."},
 {"property": "C14", "status": "partial", "theorems": ["CM.dupe_repeat_caught", "CM.dupe_history", "CM.checkDupe_spec", "CM.checkDupe_noid", "CM.dupeRun_window", "CM.calcstringcrc_8bit", "CM.Ex.dupe_other_case"], "note": "Proved over all histories of checks, restarts and crashes for 7-bit MSGIDs and window sizes 1..65536; a MSGID byte from 0x80 on indexes the checksum table with a negative number (calcstringcrc_8bit). The tag of the area is compared as it is written in the message, although areas are found whatever the case of the letters: the same message under TEST and Test is stored twice in one area (Ex.dupe_other_case)."},
 {"property": "C15", "status": "partial", "theorems": ["CM.dupe_no_false_positive", "CM.dupe_history", "CM.checkDupe_spec", "CM.crcTab_standard", "CM.calcstringcrc_8bit"], "note": "No false positives, whatever the checksums do, for 7-bit MSGIDs; other MSGIDs hit undefined behaviour first (calcstringcrc_8bit)."},
 {"property": "C16", "status": "partial", "theorems": ["CM.dupe_close_open", "CM.dupe_crash_open", "CM.openDupe_opens", "CM.openDupe_total", "CM.dupe_close_wraps", "CM.dupe_size_zero", "CM.dupe_file_kept", "CM.Ex.dupe_gap"], "note": "Proved for window sizes 1..65536 and every file; above that closing replaces entries (dupe_close_wraps), and size 0 writes outside the index (dupe_size_zero). If writing does not fail, then at every moment while it is replaced the old or the new database is complete on the disk (dupe_file_kept), but for a moment not under its own name (Ex.dupe_gap), and the next run then starts with an empty one."},
 {"property": "C17", "status": "proved", "theorems": ["CM.echomail_recipients"], "note": "For every state, message, area table, filter list and outside behaviour: each copy sent goes to a link that is due."},
 {"property": "C18", "status": "partial", "theorems": ["CM.echomail_every_link", "CM.echomail_exactly_once", "CM.Ex.twice_listed", "CM.Ex.stale_mark", "CM.Ex.stale_mark_without", "CM.Ex.masquerade_seenBy"], "note": "Exactly one copy for each due link, with all of them in SEEN-BY, when nodes are listed once, no node carries a stale SEEN-BY mark and no filter command kills; a node listed twice gets two copies, a mark left by an earlier message hides a link in areas that ignore SEEN-BY, and MASQUERADE empties SEEN-BY (witnesses)."},
 {"property": "C19", "status": "proved", "theorems": ["CM.echomail_refused", "CM.mayPost_iff", "CM.Ex.refused_run"], "note": ""},
 {"property": "C20", "status": "proved", "theorems": ["CM.echomail_disposition", "CM.echomail_disposition_nofilters", "CM.Ex.refused_lost"], "note": "Every run that ends has one of the dispositions; without a bad area refused messages are lost (Ex.refused_lost)."},
 {"property": "C21", "status": "partial", "theorems": ["CM.isLoopMail_iff", "CM.viaLine_recognised", "CM.Ex.long_address_not_recognised"], "note": "Exactly which texts count as loop mail, for texts whose chunks consist of complete lines; the Via line the system writes is recognised when the printed address has at most 19 characters. Longer addresses are cut and not recognised (witness)."},
 {"property": "C22", "status": "partial", "theorems": ["CM.bounce_autogen", "CM.bounce_handsBack", "CM.generated_handsBack_none", "CM.echomail_handsBack", "CM.netmail_handsBack", "CM.netmail_handsBack_receipt", "CM.generation_depth", "CM.areafix_handsBack", "CM.areafix_generation_depth", "CM.Ex.bounce_storm"], "note": "Within one system: bounces are marked as generated, generated messages are never bounced, and generated messages are nested at most two deep, for every message, filter list and outside behaviour, AreaFix replies included. Between systems it is violated: the mark is not sent along, and two systems can bounce each other's bounces for ever (Ex.bounce_storm)."},
 {"property": "C23", "status": "proved", "theorems": ["CM.netmailKludges_restore", "CM.netmailKludges_needed", "CM.makeNetmailKludges_text"], "note": ""},
 {"property": "C24", "status": "proved", "theorems": ["CM.areafix_allowed", "CM.areafix_unknown_node", "CM.areafix_wrong_password", "CM.Ex.empty_password_accepted"], "note": "For every request, configuration and outside behaviour. A node configured without an AreaFix password is not protected: an empty subject is accepted (Ex.empty_password_accepted)."},
 {"property": "C25", "status": "partial", "theorems": ["CM.areafix_links_permitted_partial", "CM.Ex.bigRequest_links", "CM.Ex.forward_ignores_readonly"], "note": "New links only to permitted areas for every request; the read-only mark is only proved for areas that existed before, since areas created by a forwarded request ignore it (Ex.forward_ignores_readonly). Long lines overflow the command buffer (Ex.long_line_overflows), which ends the run in the model."},
 {"property": "C26", "status": "proved", "theorems": ["CM.areafix_one_link", "CM.areafix_other_links", "CM.Ex.nameless_area", "CM.Ex.forward_duplicates_tag"], "note": "Areas are identified by their position; a forwarded request can create a second area with an existing tag (Ex.forward_duplicates_tag)."},
 {"property": "C27", "status": "proved", "theorems": ["CM.areafix_mandatory"], "note": ""},
 {"property": "C28", "status": "partial", "theorems": ["CM.reply_complete_partial", "CM.Ex.small_limits", "CM.Ex.list_exceeds_limit"], "note": "All lines are sent in order in numbered parts whatever the message handler does, and parts keep a limit of at least 5 lines if the lines contain no line ends. Limits of 1 to 4 are not kept, and a list can exceed the limit by one line (witnesses). The theorem is about a reply built from any list of lines; that a request produces the right lines is proved in C88, and for lists in C29. The first message is shown to be private, from the operator and to the name and address it should go to; later ones reuse the structure as the handler left it, so nothing is said about their addresses."},
 {"property": "C29", "status": "proved", "theorems": ["CM.areaList_exact", "CM.Ex.list_exceeds_limit"], "note": "For every configuration, node, list type and outside behaviour; the counts in the footer are right below 32768 areas."},
 {"property": "C30", "status": "partial", "theorems": ["CM.jbstrcpy_writeSafely", "CM.jbstrcpy_quoted", "CM.writeSafely_eq", "CM.readTokens_quotedLine", "CM.writeSafely_ok_partial", "CM.writeSafely_overflow"], "note": "Round trip proved for every string without line feed; 150 or more quotes/backslashes overflow the writer's 300-byte buffer (witness)."},
 {"property": "C31", "status": "proved", "theorems": ["CM.jbstrcpy_bounds", "CM.jbstrcpyrest_spec", "CM.tokLoop_bounds"], "note": ""},
 {"property": "C32", "status": "partial", "theorems": ["CM.config_rewritten_partial", "CM.config_line_kept", "CM.config_untouched", "CM.Ex.conf_rewritten", "CM.Ex.blank_lines_lost", "CM.Ex.nul_truncates", "CM.Ex.long_tag_deleted"], "note": "For every configuration and every file without NUL bytes whose lines have fewer than 4000 bytes: what is copied, dropped, replaced and appended, line by line and in order. Lines that do not describe an area or a node, and all lines outside changed sections, are copied byte for byte (apart from CR before LF). Not preserved, with witnesses: blank lines after a changed section, everything after a line that begins with NUL, and the section of an area whose tag has 80 or more characters."},
 {"property": "C33", "status": "partial", "theorems": ["CM.config_kept_partial", "CM.Ex.config_lost"], "note": "Proved at every moment, unless both writing and renaming can fail: write errors are not checked, so an incomplete file can replace the configuration, and if the rename to the backup failed before, nothing is left (witness Ex.config_lost)."},
 {"property": "C34", "status": "partial", "theorems": ["CM.evalExpr_documented_partial", "CM.evalExpr_right", "CM.exprEval_fuel", "CM.evalExpr_mixed_wrong", "CM.evalExpr_not_group_wrong", "CM.evalExpr_not_not_wrong", "CM.evalExpr_quoted_paren_wrong"], "note": "The documented value is proved for expressions that do not mix AND and OR on one level and negate only single operands; evaluation always ends. Mixed AND/OR is evaluated from the right, NOT before a group negates only its first operand, a negated operand in a negated group is an error, and a parenthesis in quotes ends a group (witnesses)."},
 {"property": "C35", "status": "partial", "theorems": ["CM.bmfind_sound", "CM.bmfind_total", "CM.bmfind_complete_partial", "CM.bmfind_first", "CM.foundBool_iff", "CM.bmfind_misses", "CM.bmfind_8bit"], "note": "Soundness, termination and bounds proved for 7-bit text. Completeness is false (witness); proved when the last pattern character does not occur earlier (bmfind_first: it is then the first occurrence that is found, wherever it is)."},
 {"property": "C36", "status": "partial", "theorems": ["CM.osMatchPattern_iff", "CM.osMatchPattern_complete", "CM.osMatchPattern_ignores_after_star"], "note": "Exact for patterns with * only at the end; text after * is ignored by the code (witness)."},
 {"property": "C37", "status": "partial", "theorems": ["CM.filter_iff", "CM.killed_by", "CM.filter_all_executed", "CM.filter_accepted", "CM.filter_kill_ignores_rest", "CM.netmail_killed", "CM.echomail_killed", "CM.execute_exit_code", "CM.accepted_filter_works", "CM.Ex.long_filter_disables"], "note": "Proved for every filter list, message and outside behaviour, for filters of at most 200 characters that were accepted; a longer broken filter is accepted and disables all filters after it (witness)."},
 {"property": "C38", "status": "proved", "theorems": ["CM.arcname_current_or_new", "CM.arcname_own_base", "CM.arcname_limit", "CM.index_roundtrip", "CM.Ex.arcname_bad_index", "CM.Ex.arcname_clobbers_count"], "note": "For last bundles of the usual form and fewer than 2^32 archives and nodes. An index edited by hand can lead to the name of an existing archive, and storing the name writes one byte beyond its field (witnesses)."},
 {"property": "C39", "status": "partial", "theorems": ["CM.basename_unique_partial", "CM.outbound_files_unique_partial", "CM.basename_ok", "CM.Ex.foreign_zones"], "note": "Proved for all addresses whose mail is sent in the domain of the first address, and for addresses of one zone in other domains. Zones in foreign domains share the directory and the names (witness): the zone is not part of the name there."},
 {"property": "C40", "status": "partial", "theorems": ["CM.flow_add", "CM.flow_run", "CM.Ex.flow_joined", "CM.Ex.flow_blank", "CM.Ex.flow_case"], "note": "Proved for flow files of complete lines of at most 198 bytes that are not blank, for every sequence of additions. A last line without newline is joined to the new entry, a blank line is read out of bounds, and names that differ only in case count as the same (witnesses)."},
 {"property": "C41", "status": "partial", "theorems": ["CM.inbound_kept_partial", "CM.Ex.inbound_lost"], "note": "Proved: received files are deleted only after all packets have been closed and the archiver has finished, wherever the program is stopped. Missing: that the archiver has succeeded; its result is ignored, so mail can be lost (witness)."},
 {"property": "C42", "status": "proved", "theorems": ["CM.bad_kept", "CM.badName_inj", "CM.movefile_through"], "note": "For the first 100000 candidate names; they are pairwise different. Whatever fails and whenever the program is stopped, no other file changes and the packet is complete under the old or the new name. Other programs are assumed not to create the name in between."},
 {"property": "C43", "status": "partial", "theorems": ["CM.jam_get", "CM.jam_count", "CM.jam_create", "CM.jam_add", "CM.jam_add_empty", "CM.jam_delete", "CM.jam_delete_none", "CM.jam_change", "CM.jam_history_partial", "CM.jam_index", "CM.jam_add_signed", "CM.jam_add_long", "CM.jam_parse_short", "CM.Ex.jam_used", "CM.Ex.jam_x86", "CM.Ex.jam_undelete"], "note": "For every sequence of additions and deletions on any base that holds some messages, whatever uninitialised buffers hold: no operation goes wrong, every message is read back as it was added (header fields, subfields, text), the others are as they were, and the counter is the number of undeleted messages; the index has the checksum of the recipient. Missing, with witnesses: where char is signed (gcc on x86) every message with a recipient is undefined behaviour (jam_add_signed), so is a recipient of more than 100 bytes (jam_add_long); removing the mark of a deleted message makes the counter wrong (Ex.jam_undelete). Files are below 4 GB; I/O errors are not modelled."},
 {"property": "C44", "status": "proved", "theorems": ["CM.jam_base_written", "CM.jam_base_read", "CM.jam_header_written", "CM.jam_header_read", "CM.jam_index_written", "CM.jam_index_read", "CM.jam_lastread_written", "CM.jam_lastread_read", "CM.jam_subfields_written", "CM.jam_subfields_read", "CM.jam_crc", "CM.jam_crc_signed"], "note": "For every structure: the bytes written are exactly those of the little-endian layout (sizes 1024, 76, 8, 16, and 8 per subfield), whatever the buffer held before, and the layout is read back as the same structure; hence round trips in both directions. jam_crc: the checksum over the table is the bitwise CRC-32 of the specification, of the text in lower case."},
 {"property": "C45", "status": "proved", "theorems": ["CM.import_kept", "CM.imports_kept", "CM.Ex.import_number_wraps"], "note": "Every import into a *.msg area, with any fault and stopped anywhere: existing files are kept; after a successful import (or any number of them) each message is in its own new file, and none has number 1. Hypotheses: numbers in the directory below b with b + imports < 2^32 (Ex.import_number_wraps shows why), fields as large as the buffers of the message, directory names as in the configuration. Other programs are assumed not to create the file between the check and the open."},
 {"property": "C46", "status": "partial", "theorems": ["CM.export_run", "CM.sent_once", "CM.sent_or_waiting", "CM.mark_never_sent", "CM.sent_exactly_once_partial", "CM.Ex.out_sent", "CM.Ex.below_mark_unsent"], "note": "Over any sequence of runs (failing or not, with any settings) and changes by other programs: each message is sent at most once each time it is put there, stays waiting until it is sent, and a successful run sends every waiting message above the high water mark, in order. Missing: with HIGHWATER a message with a number below the mark is never sent (Ex.below_mark_unsent: this is what the code does); write errors when a message is marked (it is sent again) and runs killed between sending and marking. The handler of the messages is arbitrary, within HandlerOK."},
 {"property": "C47", "status": "partial", "theorems": ["CM.stats_exact", "CM.stats_roundtrip_partial", "CM.stats_other_files", "CM.Ex.same_tag_loses", "CM.Ex.local_not_kept"], "note": "Proved byte for byte for every set of areas and nodes with distinct tags and addresses, for any later order of the configuration, and whatever the padding contains. Areas whose tags differ only in case lose their counters and local or unconfirmed areas are not kept (witnesses). stats_exact says what happens in every case."},
 {"property": "C48", "status": "proved", "theorems": ["CM.history_shifted", "CM.totals_counted", "CM.node_first_time", "CM.Ex.first_times", "CM.Ex.three_days", "CM.Ex.long_gap"], "note": "A clock that was set back shifts nothing; counters are 16 bits wide."},
 {"property": "C49", "status": "partial", "theorems": ["CM.nodelist_lookup_partial", "CM.nodelist_queries", "CM.nodelist_line", "CM.Ex.lookups", "CM.Ex.null_node_exists"], "note": "Proved for every set of nodelists with lines of at most 498 bytes below 4 GB and every address except 0:0/0.0, which is always found because the end mark of a list is compared like an entry (witness). This is the CrashMail nodelist format; V7+ nodelists are C86."},
 {"property": "C50", "status": "partial", "theorems": ["CM.msg_maint_partial", "CM.msg_maint_list", "CM.tooOld_future", "CM.Ex.msg_maint_used", "CM.Ex.msg_twice", "CM.Ex.msg_rename_fails", "CM.Ex.msg_huge"], "note": "Maintenance of a *.msg area (ProcessAreaMSG), stopped anywhere, with failing deletions, reads and writes: at every moment every message that is to be left is on the disk with its contents at its old or its new number, and no other file is touched; at the end exactly the newest `keep` messages that are not too old are left, at 2, 3, ... in the old order. Missing, with witnesses: two files with the same number (02.msg and 2.msg) lose a message (Ex.msg_twice); a rename that fails is followed by one onto the same name (Ex.msg_rename_fails); two file numbers that are multiples of 2^32 crash the program (Ex.msg_huge); messages dated in the future are too old."},
 {"property": "C51", "status": "partial", "theorems": ["CM.jam_pack_partial", "CM.jam_maint_partial", "CM.limit_count", "CM.limit_get", "CM.tooOld_past", "CM.tooOld_future", "CM.jam_swap", "CM.jam_swap_mixed", "CM.Ex.jam_maint_used", "CM.Ex.jam_tomorrow", "CM.Ex.jam_swap_used"], "note": "Maintenance of a JAM base (ProcessAreaJAM): for every base and every setting, exactly the messages with `keep` or more newer ones and those that are too old are marked as deleted, and packing keeps every other message under its number, in order, with its header, subfields and text. Missing: recipients that cannot be put into the index (over 100 characters; any where char is signed, see C43) and bases of 4 GB and more are excluded; messages dated in the future are deleted as too old (proved); if the program is stopped while the files are replaced, headers and texts may not belong together (proved), though no new file is lost; Ctrl-C is not modelled."},
 {"property": "C52", "status": "proved", "theorems": ["CM.parseArgs_sound", "CM.parseLoop_keyword", "CM.parseArgs_rejects", "CM.parseLoop_append"], "note": ""},
 {"property": "C53", "status": "partial", "theorems": ["CM.getFilePart_iff", "CM.makeFullPath_fits", "CM.makeFullPath_nodir", "CM.makeFullPath_bounds", "CM.getFilePart_makeFullPath", "CM.makeFullPath_truncates"], "note": "Proved for names that fit; longer names are cut silently (witness)."},
 {"property": "C54", "status": "proved", "theorems": ["CM.date_roundtrip", "CM.time_roundtrip", "CM.seadog_date", "CM.Ex.year_window"], "note": "For 1980 to 2079. localtime and mktime are the C library's and are parameters of time_roundtrip."},
 {"property": "C55", "status": "partial", "theorems": ["CM.node_lock_partial", "CM.config_lock_partial", "CM.Ex.both_locked", "CM.Ex.both_locked_config"], "note": "The code violates it: the test for the lock file and its creation are two steps, so two processes can both hold a lock (witnesses). Proved: while a lock is there, none of any number of processes gets it, in any interleaving."},
 {"property": "C56", "status": "proved", "theorems": ["CM.isPkt_iff", "CM.isNewPkt_iff", "CM.isPktTmp_iff", "CM.isOrphan_iff", "CM.isBad_iff", "CM.file_classes_disjoint"], "note": ""},
 {"property": "C57", "status": "proved", "theorems": ["CM.toss_order", "CM.toss_deletes_tossed", "CM.bundle_order", "CM.Ex.isort_sortsFE"], "note": "toss_order: for every directory listing, every sorting function that sorts by date and then by name, and every effect of reading a packet or unpacking a bundle: packets are handled before bundles, each kind oldest first, each file at most once; on success every packet and bundle of the directory exactly once, and exactly these are scheduled for deletion. bundle_order: the same for the packets of a bundle, leaving out those already tossed in the run. The sort (qsort) is any function that returns a sorted permutation."},
 {"property": "C58", "status": "partial", "theorems": ["CM.checkFlags_iff", "CM.checkFlags_nogroup", "CM.correctFlags_iff", "CM.correctFlags_upper", "CM.checkFlags_diverges"], "note": "Proved for group strings below 256 characters; longer ones can loop forever (witness)."},
 {"property": "C59", "status": "partial", "theorems": ["CM.netmail_append_partial", "CM.netmail_append_read", "CM.packFile_reports", "CM.Ex.netmail_lost"], "note": "Proved for every packet, at every moment, if writing does not fail. A write error is noted only after the packet has been removed, so a full disk loses netmail (witness)."},
 {"property": "C60", "status": "proved", "theorems": ["CM.checkConfig_iff", "CM.checked_paths_differ", "CM.Ex.same_tag_accepted"], "note": "checkConfig_iff: the check accepts exactly the configurations of ConfigOK (address, distinct paths of message areas without case, COPY only to existing local areas, no pattern that needs a missing nodelist, filters pass their check). checked_paths_differ: hence any two message areas, other than the area for defaults, have different paths as texts (two spellings of one directory are different paths). Limit with a witness: two areas with one tag are accepted."},
 {"property": "C61", "status": "partial", "theorems": ["CM.parse4D_accepts_out_of_range", "CM.parse4D_missing_net_misassigns", "CM.parse4D_in_range_partial"], "note": "Violated by the code (witnesses); proved for full, in-range texts."},
 {"property": "C62", "status": "partial", "theorems": ["CM.rawParse4DPat_text", "CM.rawParse4DPat_bounds", "CM.parse4DPat_print4DPat", "CM.rawParse4DPat_stale", "CM.rawParse4DPat_uninit"], "note": "Proved for texts without empty parts; empty parts reuse a stale or uninitialised buffer (witnesses)."},
 {"property": "C63", "status": "proved", "theorems": ["CM.getFilePart_no_dir", "CM.getFilePart_iff", "CM.tossed_file"], "note": "The name part; what is done with the file is C112. `..` is a name without directory, see C112."},
 {"property": "C64", "status": "partial", "theorems": ["CM.striptrail_iff", "CM.striptrail_partial", "CM.striptrail_drops_nonascii", "CM.striptrail_blank"], "note": "Proved for 7-bit nonblank strings; non-ASCII tails are removed and blank strings read out of bounds (witnesses)."},
 {"property": "C65", "status": "proved", "theorems": ["CM.readPkt_password"], "note": ""},
 {"property": "C66", "status": "proved", "theorems": ["CM.areafix_nodes", "CM.areafix_allowed"], "note": ""},
 {"property": "C67", "status": "partial", "theorems": ["CM.echo_packed_partial", "CM.echo_moved_partial", "CM.Ex.packer_packs", "CM.Ex.flow_unlisted"], "note": "Proved for every failing operation and every moment, except that the entry in the flow file is missing if writing it fails, which is not checked (witness). Assumed of the packer: it changes only the archive, keeps what is in it, and has added the packet if it returns 0. The temporary name must be free; after a crash between renaming and packing, the packet is still complete but under a name that later runs do not look for."},
 {"property": "C68", "status": "proved", "theorems": ["CM.pktName_roundtrip"], "note": ""},
 {"property": "C69", "status": "partial", "theorems": ["CM.mark_order_partial", "CM.msg_maint_partial", "CM.Ex.mark_gap"], "note": "The mark follows its message (MaintDone.mark in msg_maint_partial), and then the order to the mark is kept for every message (mark_order_partial). Missing: a mark that is not the number of a message that is left; Ex.mark_gap is a run in which a message that was above the mark is below it afterwards, so that it is never exported (mark_never_sent)."},
 {"property": "C70", "status": "proved", "theorems": ["CM.read_config_ok", "CM.read_config_refs", "CM.Ex.rd_areas", "CM.Ex.rd_nodes"], "note": "ReadConfig, every kind of line: for every contents of the file, if it is accepted the configuration satisfies ConfigOk and SettingsOk (Spec/ReadConfig.lean). The nodelist and the check of an address against it are arbitrary."},
 {"property": "C71", "status": "partial", "theorems": ["CM.read_config_defined_partial", "CM.read_config_stops", "CM.Ex.read_config_undefined"], "note": "For every file without a line that is hazardous in the sense of Spec/ReadHazard.lean there is no undefined behaviour. Hazardous are: a domain of 20 characters or more, a list of 30 groups or more, the name of the group \"\", patterns without their first part, sizes of 2 GB or more; Ex.read_config_undefined has a witness for each kind, so the property is violated there."},
 {"property": "C72", "status": "partial", "theorems": ["CM.area_reads_back_partial", "CM.node_reads_back_partial", "CM.area_written", "CM.node_written", "CM.accepted_area_back", "CM.accepted_node_back", "CM.Ex.area_back", "CM.Ex.node_back", "CM.Ex.netmail_unreadable", "CM.Ex.remote_lost"], "note": "For every configuration the reader accepts (own addresses and nodes pairwise different): every area other than a netmail area, and every node, can be written, and reading the lines adds exactly the same area or node. Missing, with witnesses: what is written for a netmail area cannot be read (the program does not change netmail areas itself), and the password and the plus of a REMOTEAF line with an empty name are lost."},
 {"property": "C73", "status": "partial", "theorems": ["CM.restart_reads_back_partial", "CM.Ex.restart_case", "CM.Ex.restart_read", "CM.Ex.local_comes_back", "CM.Ex.later_node_refused", "CM.Ex.later_packer_refused"], "note": "For every plain configuration file that is accepted and every altered configuration: rewriting succeeds and reading the new file gives exactly the configuration in memory. Conditions: addresses and tags are pairwise different, what is marked can be written (see C72), tags in the file have fewer than 80 characters, a changed area is linked only to nodes that stand before it in the file, a node that got another packer stands after the packers, the file ends with a line feed. Missing, with witnesses: removed or changed local areas come back (Ex.local_comes_back); a link to a node that stands later in the file makes the new file unreadable (Ex.later_node_refused), and so does a packer that stands after the node (Ex.later_packer_refused); see also Ex.netmail_unreadable and Ex.long_tag_deleted."},
 {"property": "C74", "status": "partial", "theorems": ["CM.changes_recorded", "CM.changes_survive_restart_partial", "CM.Ex.saved_case"], "note": "changes_recorded is complete: for every sequence of messages, with the real AreaFix, all differences are marked (Recorded, Spec/Saved.lean). changes_survive_restart_partial joins it with C73 and needs its conditions: what is marked can be written, no area is removed and then created again, nodes and packers stand before what refers to them in the file; for the other cases see the witnesses of C73. No area is left marked for removal is a hypothesis too (the program removes them after each command)."},
 {"property": "C75", "status": "partial", "theorems": ["CM.jam_link", "CM.jam_after", "CM.Ex.jam_links_example", "CM.Ex.jam_quicklink_wrong", "CM.Ex.jam_link_case"], "note": "jam_link: for every base and every number of new messages, LinksDone (Spec/JamLink.lean): a reply to a message of the base is linked to it, chains of replies are kept as long as no message has more than 1001 replies (the search for the end of a chain stops after 1000 steps), everything else is unchanged. jam_after: all areas with new messages, and the high water marks. Missing, with a witness: with QUICKLINK only checksums are compared, so messages without an identifier become parents of unrelated messages and cycles arise (Ex.jam_quicklink_wrong). Assumed: locking succeeds, fewer than 2^26 messages, char is unsigned (see C43)."},
 {"property": "C76", "status": "proved", "theorems": ["CM.bases_kept_open", "CM.base_of_area", "CM.openbase_ok", "CM.freeSlot_ok", "CM.Ex.slots_example"], "note": "For every sequence of fewer than 2^32 - 2 uses (the counter of uses has 32 bits) and every number of slots. Areas and handles are numbered; closing a handle that is not open is undefined behaviour in the model."},
 {"property": "C77", "status": "partial", "theorems": ["CM.jam_scan", "CM.jam_sent_once", "CM.jam_none_left", "CM.jam_mark_saved", "CM.Ex.jam_scan_example", "CM.Ex.jam_scan_case", "CM.Ex.jam_stale_mark", "CM.Ex.received_is_sent"], "note": "jam_scan: for every area and every handler that only appends to it (JamKeeps), JamScanned (Spec/JamScan.lean) holds, whether the run is complete or not. jam_sent_once: over any history, no message is handed over twice. Missing, with witnesses: a message from another system with the kludge FLAGS: LOK counts as local and is exported again (Ex.received_is_sent); with high water marks, a mark that is above the messages, as after the base was created anew, hides them (Ex.jam_stale_mark: what the code does). Assumed: locking succeeds (if it fails a message has been sent and is not marked), the messages can be loaded without undefined behaviour, files stay below 4 GB."},
 {"property": "C78", "status": "partial", "theorems": ["CM.jam_flags_line", "CM.Ex.flags_example", "CM.jam_roundtrip", "CM.jam_comes_back", "CM.jam_import", "CM.import_keeps", "CM.Ex.jam_fits", "CM.Ex.jam_back_example", "CM.Ex.second_file_lost", "CM.Ex.flags_lost", "CM.Ex.jam_store_undefined", "CM.Ex.control_cut"], "note": "jam_roundtrip: for every message that fits (JamFits: lengths of the fields, every line ends in CR, control lines have an argument of at most 98 characters and there is no FLAGS line, a file attach names one file, the date is one the C library converts both ways), JamBack holds for every reading. Missing, with witnesses: of several attached files only the first is kept (Ex.second_file_lost); a FLAGS line is replaced by a stray string (Ex.flags_lost; jam_flags_line says what is stored of it); control lines are cut (Ex.control_cut); three kinds of text make the program access memory outside its buffers (Ex.jam_store_undefined). Assumed: char is unsigned (see C43), locking succeeds, files stay below 4 GB."},
 {"property": "C79", "status": "partial", "theorems": ["CM.scan_all", "CM.scan_list", "CM.scan_dotjam", "CM.scan_area", "CM.scan_area_not", "CM.import_keeps_all", "CM.scan_order", "CM.scan_list_order", "CM.scan_dotjam_order", "CM.noting_forget", "CM.Ex.order_case", "CM.Ex.order_list", "CM.Ex.scan_case", "CM.Ex.scan_example", "CM.Ex.scan_list_blank", "CM.Ex.scan_list_split", "CM.Ex.scan_area_netmail"], "note": "AllScanned (Props/Scan.lean) for areas in the JAM format, for every handler that may append messages of bounded size to any of the areas (JamKeepsAll, Spec/Scan.lean; import_keeps_all: storing the messages in one of them is such a handler). For areas of any formats in the same run, scan_order, scan_list_order and scan_dotjam_order: exactly the areas to be exported are exported, each once, in order, or the run fails after some of the first of them; noting_forget: the list of areas kept for this statement changes nothing else. Missing: which messages are exported if areas in the MSG format and in the JAM format are in the same run (MSG areas alone: C46). Witnesses: an empty line in a list of areas makes the program read before its buffer (Ex.scan_list_blank), so lines are assumed not to be empty; lines of more than 98 characters are split (Ex.scan_list_split); SCANAREA ignores NOEXPORTNETMAIL (Ex.scan_area_netmail). Assumed: as for C77; Ctrl-C stays pressed; no area is in use before the run; BeforeScanToss and AfterScanToss are not part of the model."},
 {"property": "C80", "status": "partial", "theorems": ["CM.jam_rescan", "CM.msg_rescan", "CM.rescan_sends", "CM.rescan_refused", "CM.rescan_jam_partial", "CM.rescan_msg", "CM.stored_loads", "CM.Ex.msg_rescan_all", "CM.Ex.msg_rescan_gap", "CM.Ex.msg_rescan_case", "CM.Ex.rescan_example", "CM.Ex.rescan_counts_deleted", "CM.Ex.rescan_refused_example", "CM.Ex.rescan_case"], "note": "rescan_sends: for every list of messages that a message base delivers (with well-formed SEEN-BY and PATH and the tag of the area) the command sends a copy of each (ResentAs, Spec/Rescan.lean) to the node named and does nothing else; after a failure, of the first ones. jam_rescan: which messages a JAM area delivers, for every handler that may append messages. rescan_jam_partial: both together. msg_rescan and rescan_msg: the same for areas in the MSG format, whose messages are at every moment as they were; the program ends and does nothing undefined (Sure, Spec/MsgRescan.lean). Missing: that every message can be read, which is a condition (jam_roundtrip, C78, and stored_loads give it for messages stored by the program; lines such as a SEEN-BY line that is cut off make the program read outside its buffer). Numbers without message count among the last n as well (Ex.msg_rescan_gap). Witness: deleted messages count among the last n (Ex.rescan_counts_deleted), and the property is stated that way. BeforeScanToss and AfterScanToss are not part of the model. Rescans asked for by AreaFix use the same functions (rescanAll)."},
 {"property": "C81", "status": "proved", "theorems": ["CM.net_starts", "CM.net_progress", "CM.net_bound", "CM.net_once", "CM.net_reaches_all", "CM.net_completes", "CM.Ex.ntNet_ok", "CM.Ex.ntNet_reaches_all"], "note": "EchoNet (Spec/Net.lean) states the conditions for each system and the tree; NetRun (Model/Net.lean) the runs: posting, then packets tossed in any order by the system they are addressed to, each handled by the modelled reader (ReadPkt), HandleMessage, and packet writer. net_once and net_bound hold at every point of every run, net_progress and net_completes show that every run can go on until no packet is left, net_reaches_all what then holds. The only word that may change is the subject, from which a system with STRIPRE removes Re: marks (stated). Left out: what carries a packet from one system to the next (bundling, the outbound directory, mailers, file errors); a packet arrives as it was written. Text lines with SEEN-BY, PATH or RESCANNED of the author are excluded, as are areas with import nodes and address lists ADDNODE/REMNODE."},
 {"property": "C82", "status": "proved", "theorems": ["CM.nm_starts", "CM.nm_path", "CM.nm_progress", "CM.nm_completes", "CM.nm_not_before", "CM.nm_delivered", "CM.Ex.nmNet_ok", "CM.Ex.nmNet_delivers"], "note": "NmRoute (Spec/NetNetmail.lean) states the conditions; the runs are those of C81 (NetRun). nm_path and nm_not_before hold at every point of every run, nm_progress and nm_completes show that every run can go on to the end of the route, nm_delivered what then holds. The route of each system is that of routeNetmail (C04, C05). The subject loses Re: marks at a last system with STRIPRE (stated). Conditions: lines of at most 8000 bytes, because a longer one is split between text blocks and the loop check then reads past its buffer; no filters, no attributes that ask for more (crash, hold, file attach, receipt, audit), no RESCANNED line, and without an INTL line all systems send under addresses in the zone of the sender. Loop mail checking may be on, but not in the mode that writes suspected loops to the bad area. Left out: what carries a packet from one system to the next."},
 {"property": "C83", "status": "proved", "theorems": ["CM.graph_starts", "CM.graph_progress", "CM.graph_bound", "CM.graph_once", "CM.graph_reaches_all", "CM.graph_completes", "CM.Ex.grNet_ok", "CM.Ex.grNet_reaches_all"], "note": "EchoGraph (Spec/NetGraph.lean) states the conditions: links go both ways, every system has its neighbours as links of the area, has DUPEMODE KILL and a database with room that does not hold the message yet, no filters, no read-only or write-only links; the message has a MSGID of 7-bit characters. graph_bound: however the packets are tossed, there are at most 1 + n + n*n runs; graph_progress: every packet on its way can be tossed next; so every run ends (graph_completes), and then graph_reaches_all holds. The runs are those of C81 (NetRun). Left out: what carries a packet from one system to the next."},
 {"property": "C84", "status": "partial", "theorems": ["CM.own_message_partial", "CM.Ex.grNet_seenBy", "CM.Ex.grNet_root", "CM.Ex.grNet_comes_back"], "note": "Holds if all systems are in one zone, none is a point, all check SEEN-BYs and no link has short or no SEEN-BYs. Fails otherwise: HandleEchomail enters only tossed messages in the database of duplicates, not exported ones (handle.c 672), so a copy that comes back over a loop across zones, where SEEN-BYs are cut, is stored beside the original and sent again (Ex.grNet_comes_back: four systems in a ring)."},
 {"property": "C85", "status": "partial", "theorems": ["CM.echo_stored_comes_back", "CM.netmail_stored_comes_back_partial", "CM.stored_fields", "CM.msg_echo_back", "CM.msg_netmail_back", "CM.Ex.keepEcho_rescan", "CM.Ex.zone_lost", "CM.Ex.open_line_joins"], "note": "Echomail is proved in full for texts that end with a line end; without one the first PATH or SEEN-BY line becomes part of the text (`Ex.open_line_joins`). The full statement fails for netmail: zones are stored in the header but not read, so a netmail without INTL line comes back with the zone of the area instead of its own (`Ex.zone_lost`); with an INTL line, or if the zones are the same, the addresses come back. Needs disk operations that succeed."},
 {"property": "C86", "status": "partial", "theorems": ["CM.v7_start", "CM.v7_lookup", "CM.v7_check_node", "CM.v7_hub_region_partial", "CM.Ex.v7_index", "CM.Ex.v7_lookups", "CM.Ex.v7_hub_case", "CM.Ex.v7_other_long", "CM.Ex.signed_hub", "CM.Ex.v7_endless", "CM.Ex.v7_wild_key", "CM.Ex.v7_wild_names"], "note": "Opening and lookups are proved for every index of the machine's own layout; hub and region for every record whose bytes are not negative as char. Violated otherwise (witnesses): with signed char the packed text is misread and no hub is found; an index written with 4-byte longs is opened on a machine with 8-byte longs, but its nodes are not found; a damaged index makes the search run forever or read outside of the buffer; names longer than the text of a record are read outside of the buffer."},
 {"property": "C87", "status": "partial", "theorems": ["CM.rfc_file_partial", "CM.rfc_file_safe", "CM.rfc_file_short", "CM.folded_keeps", "CM.expand_exact", "CM.execute_runs", "CM.sent_file_echo", "CM.sent_file_netmail", "CM.Ex.rfcMsg_ok", "CM.Ex.rfcMsg_file", "CM.Ex.rfc_no_end", "CM.Ex.rfc_forged", "CM.Ex.rfc_long_control", "CM.Ex.execute_injected", "CM.Ex.execute_capital"], "note": "Proved for every message whose header fields have no line feeds and whose text chunks end with a line end (Mailable, Spec/Rfc.lean): the mail file is read back by an independent reader (mailFile) as the header lines, the control lines and the text, with Folded saying how a line may be broken; execute_runs gives the command line, the disk the command sees and the disk afterwards, for every external program, when no disk operation fails and the command line fits in its buffer of 400 bytes. The full statement is violated: a subject with line feeds ends the header (Ex.rfc_forged), the rest of a long control line becomes text (Ex.rfc_long_control), a text without final line end makes the program read behind it (Ex.rfc_no_end), a subject can contain shell commands which are executed (Ex.execute_injected), %M is replaced by nothing (Ex.execute_capital)."},
 {"property": "C88", "status": "partial", "theorems": ["CM.request_answered_partial", "CM.Ex.full_request", "CM.Ex.order_mailed", "CM.Ex.tear_line_answered", "CM.Ex.again_contradicts", "CM.Ex.nothing_to_do", "CM.Ex.order_cut", "CM.Ex.line_broken", "CM.Ex.end_cut"], "note": "Proved for every request of an authorised node that does not crash the program: the configuration afterwards, the reply, the lists sent and the messages with commands for other nodes (if these are shorter than 80 bytes and do not begin with byte 1) are those of the specification (Spec/Request.lean: requestLines, AsksFor, verdict, fulfilled, Closing, CommandAnswered, Answered), which says line by line what is changed and what is answered. Preconditions: there is a route for the node and no area is marked as deleted before. The specification includes what the full statement forbids; witnesses: the tear line is answered as a command (Ex.tear_line_answered), a line with an equals sign and no option gets two contradictory answers and no rescan (Ex.again_contradicts), the reply to a request that was refused ends with Nothing to do (Ex.nothing_to_do), orders are cut to 70 characters (Ex.order_cut), lines across the parts of a text are broken (Ex.line_broken), letters from 128 on at the end of a line are lost (Ex.end_cut). Which messages a rescan sends is in C80."},
 {"property": "C89", "status": "partial", "theorems": ["CM.write_arguments", "CM.write_refuses", "CM.Ex.write_args_example", "CM.written_netmail", "CM.written_echomail", "CM.written_nothing", "CM.written_text", "CM.Ex.cw_netmail", "CM.Ex.cw_echomail", "CM.Ex.cw_glued", "CM.Ex.cw_torn", "CM.Ex.cw_control", "CM.Ex.cw_seenby", "CM.Ex.cw_nul"], "note": "Proved for every run from the command line to the message the receiver's ReadPkt hands over (readPkt, the model of C11 to C13). Preconditions: text lines without NUL and stray CR, no byte 1; for echomail also a line end at the end, lines of at most 197 bytes, no SEEN-BY lines, closed addresses in origin lines; the date is between 1980 and 2079; zones are given. Violated otherwise (witnesses): without a line end at the end the tear line is glued to the last line; a line of 98 bytes with CR and LF gets an empty line after it, because the buffer ends between the two (written_text says exactly when); a control line in the text changes the addresses; a quoted SEEN-BY line disappears; a NUL swallows the rest of its line or of the text."},
 {"property": "C90", "status": "partial", "theorems": ["CM.export_format", "CM.export_list_partial", "CM.forward_list", "CM.Ex.cx_areasBbs", "CM.Ex.cx_forward", "CM.Ex.cx_group", "CM.Ex.cx_golded", "CM.Ex.cx_timed", "CM.Ex.cxFile_modest", "CM.Ex.export_undefined", "CM.Ex.export_cut"], "note": "Proved by reading the file with both programs side by side (the model of ReadConfig of C71 and that of CrashExport) for all five formats: export_list_partial. Preconditions (Modest): names, paths and descriptions shorter than CrashMail's fields, nodes without marks and at most forty per area, an address word of less than 49 characters. forward_list: what AreaFix finds in the written file. The full statement is violated: a marked node leads to strcpy between overlapping strings and 42 long addresses to a write behind the end of an array (Ex.export_undefined), long descriptions are cut at different lengths (Ex.export_cut), and AreaFix takes the semicolon of the comment lines for the name of an area (in the statement of forward_list)."},
 {"property": "C91", "status": "partial", "theorems": ["CM.packer_first_partial", "CM.FirstFit.unique", "CM.Ex.bundlePackers_ok", "CM.Ex.detect_short", "CM.Ex.detect_long"], "note": "Proved for all well-formed patterns for at most 40 bytes and all bundles that are not shorter than the patterns; for shorter bundles whenever the program has a defined result. Missing: a bundle that ends while it still fits a pattern is compared with memory that was never set, and longer patterns read behind the buffer (witnesses)."},
 {"property": "C92", "status": "partial", "theorems": ["CM.bundle_safe", "CM.bundle_kept_partial", "CM.badFile_saves", "CM.Ex.bundle_conds", "CM.Ex.bundle_tossed", "CM.Ex.bundle_lost", "CM.Ex.packet_lost", "CM.Ex.killed_lost"], "note": "bundle_safe: complete under its name or as a bad file at every moment of TossBundle, whatever fails. bundle_kept_partial: the whole claim if files can be moved and opened, without a BEFORETOSS command. Missing, because the code violates it (witnesses): a bad bundle that cannot be moved is deleted; a packet that cannot be opened is deleted together with the bundle; a packer killed by a signal counts as successful. How a packet is handled after opening is a parameter (C01 ff.)."},
 {"property": "C93", "status": "partial", "theorems": ["CM.crashstats_report_partial", "CM.crashstats_other_files", "CM.unit_mb", "CM.isort_sortsBy", "CM.Ex.statEnv_clock", "CM.Ex.statEnv_sort", "CM.Ex.csFile_eq", "CM.Ex.csLimits", "CM.Ex.cs_areas", "CM.Ex.size_lost", "CM.Ex.week_wraps", "CM.Ex.many_negative"], "note": "Round trip with the model of WriteStats (C47): crashstats_report_partial for every file it writes, every option, any order qsort chooses among equals and any localtime that knows the dates. Limits (StatLimits): totals below 2^31, fewer than 65536 messages on one day in all areas together, tags without spaces, dates up to the day of the file. Missing, because the code violates it (witnesses): sizes are always shown in MB, so that 5000 bytes are 0 MB (unit_mb, Ex.size_lost), the totals of a day wrap at 65536 (Ex.week_wraps), and numbers from 2^31 are negative (Ex.many_negative)."},
 {"property": "C94", "status": "partial", "theorems": ["CM.crashmaint_run_partial", "CM.crashmaint_others_partial", "CM.crashmaint_nothing", "CM.jobs_exist", "CM.Ex.cmGood_inPlace", "CM.Ex.cmGood_areas", "CM.Ex.cmTwo_inPlace", "CM.Ex.cmDisk_names", "CM.Ex.limit_of_template"], "note": "Line by line simulation against the model of CrashMail's ReadConfig (C70, C71). crashmaint_run_partial holds for whatever maintaining an area does; crashmaint_others_partial puts in ProcessAreaMSG (C50), under its conditions, and leaves JAM areas open. Missing, because the code violates it: a limit given after a template or an area without messages is taken for the limit of the area before (Ex.limit_of_template). Also excluded: limits of 0 and numbers written with 30 characters."},
 {"property": "C95", "status": "partial", "theorems": ["CM.getnode_shows_partial", "CM.getnode_safe", "CM.Ex.fullList_ok", "CM.Ex.getnode_full", "CM.Ex.getnode_empty_field", "CM.Ex.getnode_long_line"], "note": "On top of the lookup theorem of C49. Missing, because the code violates it: strtok skips empty fields, so the fields after an empty one are shown under the wrong names (Ex.getnode_empty_field); the buffer has 200 bytes, so the end of longer lines is lost (Ex.getnode_long_line). 0:0/0 is excluded as in C49."},
 {"property": "C96", "status": "partial", "theorems": ["CM.listout_report_partial", "CM.Ex.listout_full", "CM.Ex.listout_verbose", "CM.Ex.listout_wrong_fate", "CM.Ex.listout_long_address", "CM.Ex.listout_no_mail", "CM.Ex.listout_small_sizes", "CM.Ex.listout_blank_line", "CM.Ex.listout_packet_total"], "note": "For directories with at most 85 characters in which every name of eight characters with one of the extensions is hexadecimal, addresses with at most 17 characters, flow files and requests without blank lines: complete. Violated otherwise, with witnesses: addresses are cut, other files are shown as mail, blank lines read before the string. Sizes are whole megabytes, so small files show 0M; packets do not count in the totals. What VERBOSE shows below each line is proved too; a bundle that CrashMail marks for deletion is announced as to be truncated (witness)."},
 {"property": "C97", "status": "proved", "theorems": ["CM.crashmail_files_listed", "CM.mail_for_one", "CM.listout_shows_mail"], "note": "The names CrashMail makes are those CrashListOut understands; together with C96 such files are shown."},
 {"property": "C98", "status": "partial", "theorems": ["CM.crashlist_newest_partial", "CM.crashlist_fails", "CM.crashlist_then_lookup", "CM.Ex.list_run", "CM.Ex.list_no_shorter", "CM.Ex.newest_taken", "CM.Ex.listed_nodes", "CM.Ex.other_list_taken"], "note": "Complete for names of at most 90 characters written without quotes, lines of at most 197 characters and directories of at most 99 characters, if no nodelist in the directory has a name that is only the beginning of the name asked for. Violated otherwise: only as many characters are compared as the file found has, so NODE.999 is taken for NODELIST if it is newer (Ex.other_list_taken)."},
 {"property": "C99", "status": "partial", "theorems": ["CM.crashmail_commands_partial", "CM.crashmail_carries_out_partial", "CM.crashmail_refuses", "CM.crashmail_order", "CM.exit_codes", "CM.Ex.some_options", "CM.Ex.second_command_ignored"], "note": "What is carried out is proved for every command line: at most two commands, one of TOSS and TOSSFILE and then the first of the others in a fixed order. Violated: the others are silently ignored (Ex.second_command_ignored). The exit code is 0 whatever the commands do. What a command does is a parameter here."},
 {"property": "C100", "status": "partial", "theorems": ["CM.work_under_lock_partial", "CM.waits_for_lock_partial", "CM.lock_released_partial", "CM.lock_option", "CM.unlock_option", "CM.lock_stays", "CM.lock_overflow", "CM.Ex.parts_leave_lock", "CM.Ex.toss_alone", "CM.Ex.toss_twice", "CM.Ex.long_name_run", "CM.Ex.dupes_lost"], "note": "Complete for configuration names of at most 99 characters and all files but those written by Free at the end. Violated: the file of duplicates is replaced after the lock has been removed, so that a record of another run can be lost (Ex.dupes_lost); with a name of 100 to 194 characters the lock is never removed (lock_stays, Ex.long_name_run), and a longer one overflows a buffer (lock_overflow). What the commands do to the disk is a parameter; that they leave the lock file alone is a hypothesis."},
 {"property": "C101", "status": "partial", "theorems": ["CM.jam_shared_partial", "CM.jam_wiped", "CM.jam_wiped_open", "CM.Ex.jam_race", "CM.Ex.two_wrote"], "note": "Complete for areas whose four files are there and can be opened. Violated: JAM_CreateMB truncates the files before it locks, and is called whenever one of the four files cannot be opened: a missing .jlr file (jam_wiped) or one failed fopen (jam_wiped_open) empties the area, and of two programs that make an area at the same time the second one removes the messages of the first (Ex.jam_race). Assumed: stdio reads what is on the disk; processes are not killed."},
 {"property": "C102", "status": "partial", "theorems": ["CM.subpack_returns_partial", "CM.getSubR_eq", "CM.subpack_none", "CM.subpack_overflow", "CM.Ex.long_message", "CM.Ex.many_fields"], "note": "Complete as long as the array of the packet can be expanded, for fewer than 20 * 2^27 fields. Violated otherwise: JAM_PutSubfield doubles NumAlloc before realloc, so that after a failed realloc the next field is written behind the array (subpack_overflow); jam_addfield goes on after a failure (Ex.long_message)."},
 {"property": "C103", "status": "partial", "theorems": ["CM.notify_sent", "CM.area_removed", "CM.help_exact_partial", "CM.Ex.notified_all", "CM.Ex.removed_told", "CM.Ex.removed_nothing", "CM.Ex.removal_overflow", "CM.Ex.help_cut"], "note": "Who gets what is proved for all configurations; only the first message of a reply in several parts is shown to be addressed rightly, and the addresses need lines that are no control lines. Violated: an unknown area is no error (Ex.removed_nothing); telling an operator about an area with a name of 56 characters or more overflows a buffer (Ex.removal_overflow); the help file loses a character in each line of more than 98 characters and at its end if there is no line feed (help_exact_partial, Ex.help_cut). BeforeScanToss and AfterScanToss are left out."},
 {"property": "C104", "status": "partial", "theorems": ["CM.new_area_set_up_partial", "CM.request_answered_partial", "CM.Ex.area_created", "CM.Ex.shared_path"], "note": "Settings, links and description are proved for every configuration, for echomail (new_area_set_up_partial) and for ordered areas (the clause setUp of NewArea in request_answered_partial). Violated: the special characters of a name become underlines, so that two areas can get the same path; the configuration is then refused at the next start, and the program does nothing more until it has been edited (Ex.shared_path)."},
 {"property": "C105", "status": "partial", "theorems": ["CM.traffic_daily_partial", "CM.traffic_unknown", "CM.traffic_listed_partial", "CM.Ex.traffic_not_weekly", "CM.Ex.traffic_midnight"], "note": "Violated: the number is that of messages a day, the same that CrashStats shows, and has nothing to do with KB or weeks (traffic_daily_partial, Ex.traffic_not_weekly). In the model of AreaFix the printed number is a parameter; traffic_listed_partial puts in the real one. Areas whose first message is from 1970 or from a later day than the statistics are excluded (Ex.traffic_midnight)."},
 {"property": "C106", "status": "partial", "theorems": ["CM.remap_partial", "CM.remap_echomail", "CM.remap_read", "CM.remap_unterminated", "CM.remap_loop_check", "CM.masquerade_partial", "CM.masquerade_hides", "CM.Ex.remapped", "CM.Ex.remap_via", "CM.Ex.remap_uninit", "CM.Ex.remap_overflow", "CM.Ex.masked", "CM.Ex.masked_long", "CM.Ex.masked_dropped", "CM.Ex.masked_reply"], "note": "The change of the header and of every line is exact for messages that consist of whole lines. Violated: the last line of the note of REMAP ends in the letter d instead of a CR, so that the text cannot be read by lines afterwards (remap_unterminated, Ex.remap_via) and the check for loops reads uninitialised memory (remap_loop_check, Ex.remap_uninit); long names overflow a buffer of 100 bytes (Ex.remap_overflow); MASQUERADE cuts the end of long MSGID lines (Ex.masked_long), drops those without a serial number (Ex.masked_dropped) and changes the address in REPLY lines, which is that of somebody else (Ex.masked_reply)."},
 {"property": "C107", "status": "partial", "theorems": ["CM.bounce_told", "CM.receipt_told", "CM.receipt_after_import", "CM.audit_told", "CM.audit_true_partial", "CM.copy_partial", "CM.copy_nowhere", "CM.Ex.answers_usual", "CM.Ex.answers_routes", "CM.Ex.bounced_letter", "CM.Ex.receipt_sent", "CM.Ex.receipt_bounced", "CM.Ex.audit_sent", "CM.Ex.audit_direct", "CM.Ex.copy_made", "CM.Ex.copy_area", "CM.Ex.copy_passthrough", "CM.Ex.copy_failed"], "note": "Proved for messages whose strings are not longer than in packets. Violated: the audit names the system of the route also for messages that are sent directly (Ex.audit_direct; for ordinary messages it is right, audit_true_partial); COPY to an area without message base crashes the program (Ex.copy_passthrough); after a copy that could not be stored the message itself goes on with the AREA line of the copy (Ex.copy_failed); a receipt is not marked as a message of the program and can be bounced (Ex.receipt_bounced)."},
 {"property": "C108", "status": "partial", "theorems": ["CM.config_says", "CM.line_says", "CM.says_one", "CM.unknown_refused", "CM.sysop_cut", "CM.sysop_not_kept", "CM.Ex.abbreviated", "CM.Ex.prefs_say", "CM.Ex.prefs_read"], "note": "What each documented line says is specified as a relation between the words of the line and the change of the settings (`Says`, `LineSays`, `FileSays` in Spec/Says.lean), with the words as they may be written. config_says: a file that says t is read as t; says_one: it says one thing only; unknown_refused: other words are refused. Violated for the name of the sysop: the documentation allows 36 characters, 34 are kept (sysop_cut, sysop_not_kept). Lines longer than 3997 bytes, words longer than their limits (they are cut), and GROUP or numbers not written in the documented form are not specified. Witnesses: the example of abbreviated EXPORT addresses of the documentation, and a file with nineteen lines of different kinds."},
 {"property": "C109", "status": "partial", "theorems": ["CM.stmt_says", "CM.filter_says_partial", "CM.operator_refused", "CM.nodelist_false_ignored", "CM.Ex.fv_says", "CM.Ex.pieces_not_joined", "CM.Ex.nodelist_false", "CM.Ex.long_pattern_cut"], "note": "stmt_says: a single statement is true of a message exactly if the message is as doc/filter.txt says (`StmtSays`), for every variable and both operators. filter_says_partial: a whole expression, without AND and OR mixed on one level and with NOT before single operands (the code knows no precedence, see C34). Patterns with at most one *, at the end, and words whose last character occurs nowhere else in them (see C35, C36). operator_refused: other operators make the statement fail. Violated: EXISTSNL_*=FALSE is the same as EXISTSNL_*=TRUE (nodelist_false_ignored, Ex.nodelist_false); words and kludge lines that are split between two pieces of a long text are not seen as one (Ex.pieces_not_joined); patterns are cut after 99 characters (Ex.long_pattern_cut)."},
 {"property": "C110", "status": "partial", "theorems": ["CM.stripRe_iff", "CM.stripRe_left", "CM.stripRe_idem", "CM.echo_subject", "CM.copy_subject", "CM.netmail_subject", "CM.badHeader_note", "CM.loopCopy_ok", "CM.loop_stored", "CM.Ex.strip_many", "CM.Ex.strip_digits", "CM.Ex.loop_kludges"], "note": "stripRe_iff: a subject is stored as the specification `Stripped` says: marks are taken off the front as long as there are any. Marks with numbers of more than one digit are kept (Ex.strip_digits). loop_stored: if checking ends regularly. A message that cannot be stored stops the program."},
 {"property": "C111", "status": "partial", "theorems": ["CM.orphan_made", "CM.orphan_handled_partial", "CM.parseOrphan_says", "CM.orphanText_says", "CM.doAddFlow_exact", "CM.orphan_lost", "CM.Ex.orphan_example", "CM.Ex.orphan_file_says"], "note": "orphan_made: the orphan file that is written says what was to be done (OrphanSays, Spec/Orphan.lean), and only it is written. orphan_handled_partial: for every disk, every failure but that of a write, and wherever the program is stopped. Violated when writing fails: the orphan file is deleted although the entry was not written (orphan_lost), because doAddFlow does not look at write errors. Not covered: names of 193 and more characters (their handling is undefined, see C59), and several orphan files at once, which are handled one after the other."},
 {"property": "C112", "status": "partial", "theorems": ["CM.names_exist", "CM.attach_sent", "CM.attach_fails", "CM.attach_none", "CM.tossed_file", "CM.exported_file", "CM.files_entered", "CM.refused_iff", "CM.passed_iff", "CM.route_refused", "CM.route_attach", "CM.Ex.attach_two", "CM.Ex.attach_absent", "CM.Ex.attach_hyps", "CM.Ex.attach_parent", "CM.Ex.attach_inbound", "CM.Ex.attach_refused"], "note": "Violated for the names `..` and names that end with a directory separator: the directory above the inbound, or the inbound itself, is moved and entered (`Ex.attach_parent`, `Ex.attach_inbound`). Subjects with words that begin with a quote are left out. The writing of the flow entries is C111 and the flow file properties."},
 {"property": "C113", "status": "partial", "theorems": ["CM.inbound_cleared", "CM.file_cleared", "CM.long_name_cleared", "CM.Ex.inbound_hyps"], "note": "Proved for paths of less than 100 characters. For longer ones the statement is false, for every such run: the file that was tossed stays, and is tossed again by the next run, and a file whose name is the first 99 characters is removed (long_name_cleared). What tossing itself does to the disk is in C41 and C42."},
 {"property": "C114", "status": "partial", "theorems": ["CM.log_records", "CM.log_record", "CM.log_one_line", "CM.areas_logged", "CM.scan_logged", "CM.export_logged", "CM.totals_undefined", "CM.update_error_undefined", "CM.Ex.log_example", "CM.Ex.log_forged"], "note": "log_records: every sequence of records, made of fixed texts, strings and numbers, with the C library function vprintf modelled for the conversions the program uses. A record is one line if its strings have no line ends; a name with a line end forges a line (Ex.log_forged). Violated as well: the totals of every toss run are uint32_t printed as unsigned long, which is undefined (totals_undefined), and the message about a configuration file that cannot be updated is used as a format (update_error_undefined). That the other calls of LogWrite have matching arguments is checked for the summaries and the export only. Assumed: the log file can be written."},
 {"property": "C115", "status": "partial", "theorems": ["CM.leftovers_removed", "CM.made_is_leftover", "CM.half_never_sent", "CM.Ex.left_hyps", "CM.Ex.left_stays"], "note": "leftovers_removed: complete if the names have at most 90 characters (those CrashMail makes have) and deleting works. Violated otherwise: the result of osDelete is ignored, so a packet that cannot be removed stays without notice (Ex.left_stays), and if it was finished it is sent along with the new ones."},
 {"property": "C116", "status": "partial", "theorems": ["CM.counters_partial", "CM.counters_right_iff", "CM.Ex.netmail_counted_twice", "CM.Ex.zone_counted"], "note": "counters_partial: for every run and every node, all counters are right except those of received netmails. Violated: ReadPkt and HandleNetmail both count a received netmail, so the number and the bytes are twice the right ones (counters_right_iff: always, unless there was none). Nodes must be different and addresses complete: a node configured without zone gets the counts of another one (Ex.zone_counted). The events are the calls of the functions; which messages cause them is in C17 to C23."},
 {"property": "C117", "status": "partial", "theorems": ["CM.run_counted", "CM.echo_counted", "CM.net_counted", "CM.stored_counted", "CM.route_counted", "CM.echo_one", "CM.echo_totals", "CM.handleMessageT_forget", "CM.Ex.tally_example", "CM.Ex.killed_not_counted", "CM.Ex.twit_counted", "CM.Ex.loop_counted_twice"], "note": "run_counted: for every run that is not ended by an error, what is counted for each message is what RunCount says (EchoCount and NetCount, Spec/Tally.lean, in terms of the messages stored and sent), and handleMessageT_forget shows that the functions that count do what those of the other properties do. echo_totals: refused, duplicate, new and killed echomails make up all. Violated: a message killed by a filter is in none of the totals, one of a twit counts as a message of the area, and a loop-mail counts both as bad and as routed (witnesses). Not covered: what filters that copy, AreaFix, and the messages the program makes itself add to the counters; runs that end with an error."},
 {"property": "C118", "status": "partial", "theorems": ["CM.msg_links_partial", "CM.links_after", "CM.in_place", "CM.Ex.reply_to_other"], "note": "Violated: the numbers in the headers are not changed when messages are renumbered (Ex.reply_to_other: a reply refers to an unrelated message afterwards). msg_links_partial gives exactly the links that are right: all of them if messages are not renumbered, and otherwise those to messages below which no number is free or was freed (LinksAfter). Same conditions as C50. Packing a JAM base keeps the numbers of the messages (C51)."},
 {"property": "C119", "status": "partial", "theorems": ["CM.command_line_partial", "CM.command_line_refused", "CM.parse_noParts", "CM.tools_help", "CM.stats_cmdline_partial", "CM.listout_cmdline_partial", "CM.getnode_cmdline_partial", "CM.crashlist_cmdline_partial", "CM.export_cmdline_partial", "CM.export_refuses_partial", "CM.maint_cmdline", "CM.tools_help_partial", "CM.Ex.listout_words", "CM.Ex.word_dropped", "CM.Ex.listout_exit", "CM.Ex.export_over_config"], "note": "command_line_partial: for every table of arguments, a command line is understood exactly if it is Sensible, and every argument then has the value that is Meant (Spec/ToolArgs.lean), if arguments that can be given by place are named before the first word without a name (NamesFirst). The others join it with the models of the tools. Violated: a word for an argument that is named later is dropped without notice (Ex.word_dropped); CrashListOut reports success if it cannot read the directory (Ex.listout_exit); CrashExport empties the configuration if its name is also given for the list (Ex.export_over_config, excluded in export_cmdline_partial). tools_help_partial says the same in terms of the help that the tool prints (C122). The texts of error messages are not modelled."},
 {"property": "C120", "status": "partial", "theorems": ["CM.log_kept_partial", "CM.log_overwritten", "CM.log_incomplete", "CM.Ex.log_case", "CM.Ex.log_lost"], "note": "log_kept_partial: for every history in which no run opens the log between the moment another one removes the lock and that in which it closes the log (NoneBetween, Spec/LogFile.lean), and in which the user removes locks only when no run works. Violated otherwise: CleanUp removes the lock before Free closes the log, and the log is not opened for appending, but at the position of its end at that time; a run that waits for the lock and begins in between writes over the last lines of the other one (log_overwritten, for all texts; log_incomplete, Ex.log_lost). A run that is killed can leave half a line, to which the next line is joined (Ex.log_case). Assumed: taking the lock is one step (see C55), opening and writing do not fail, no other program changes the log, the log is not syslog."},
 {"property": "C121", "status": "partial", "theorems": ["CM.stored_right_partial", "CM.link_defined_partial", "CM.misfiled", "CM.link_dangling", "CM.dir_stored_own", "CM.dir_all_stored_partial", "CM.dir_not_made", "CM.Ex.dir_case", "CM.Ex.dir_reused", "CM.Ex.areaOps_reused", "CM.Ex.areaOps_removed", "CM.Ex.area_case", "CM.Ex.area_misfiled"], "note": "Violated: an area is recognised by the address of its record, and the entry of jam_AreaList stays when AreaFix frees the record. If a new area gets the same address, its messages are stored in the base of the removed area (misfiled, after any history); if none does, linking the replies at the end of the run reads the freed record (link_dangling). stored_right_partial: every other run stores every message in the base of its area (NoneReused); link_defined_partial: if no area is removed after it has got messages (NoneRemoved), linking reads only existing records, those of the areas that exist and have got messages, each once (LinksAll; a base that cannot be opened ends the run with a failure, after which nothing is linked). Fewer than 2^32 - 2 operations, because the counter of jam_getarea wraps around (see C76). For *.msg areas: every message that is stored is in the directory of its own area, under a number of its own, without conditions (dir_stored_own); every message is stored if no address is used again and directories can be made (dir_all_stored_partial); otherwise the directory of a new area is not made and its messages cannot be stored (dir_not_made, after any history). There, numbers do not wrap around at 2^32 and writing into an existing directory does not fail (for these see C45). A message for an address without a record, and a record at an address in use, do nothing in the model: the program has only the addresses of records."},
 {"property": "C122", "status": "proved", "theorems": ["CM.tools_help_read", "CM.help_read", "CM.Ex.help_getnode", "CM.Ex.help_writenames"], "note": "tools_help_read for the tables of the seven tools, help_read for every table with such names. A switch that were mandatory or given by place would not be marked as such (no tool has one). That the command line is then understood in this way is C119 (tools_help_partial)."},
 {"property": "C123", "status": "partial", "theorems": ["CM.ids_differ_partial", "CM.second_dropped", "CM.same_packet", "CM.number_second", "CM.Ex.id_case", "CM.Ex.id_conditions"], "note": "Violated: the number in the MSGID is the first one from the time on for which there is no packet in the directory. If the packet has been tossed before the next message is written in the same second, or if messages are written to two directories, the MSGIDs are the same, and the second message is dropped as a duplicate whatever the database contains (second_dropped). ids_differ_partial: equal MSGIDs mean the same address, that the first packet was taken away in between if the directory is the same, and the same second up to a period of 2^24 seconds if a run tries at most 256 numbers. That a tossed message has this MSGID is C89. Not modelled: two runs that look for a name at the same time."},
 {"property": "C124", "status": "partial", "theorems": ["CM.crashmail_fault", "CM.tools_fault_partial", "CM.fault_named_partial", "CM.fault_reported_partial", "CM.fault_unique_partial", "CM.msg_forget", "CM.Ex.fault_missing", "CM.Ex.fault_other_word", "CM.Ex.fault_novalue", "CM.Ex.fault_named_late", "CM.Ex.fault_conditions"], "note": "The messages are exactly those of Fault (Spec/ArgMsg.lean), in both directions, for every table and for the seven tools; for CrashMail and CrashMaint, whose arguments all have names, without any condition (crashmail_fault). Missing, because the code violates it: if an argument is named after a word was taken for it, the word is lost and the message says that another argument is missing although enough words were given (Ex.fault_named_late). A word that was meant as a switch and does not exist takes a place, so that the message is about a later word (Ex.fault_other_word)."},
 {"property": "C125", "status": "partial", "theorems": ["CM.write_whole_partial", "CM.write_ends", "CM.full_disk", "CM.early_packet", "CM.early_bad", "CM.Ex.cut_packet", "CM.Ex.write_conditions"], "note": "write_whole_partial: AtMost at every moment and EndsAs at the end (Spec/WriteDisk.lean), if the text is not itself in a packet of the directory; the whole message if writing does not fail, no packet after an error if deleting does not fail. write_ends: every message can be written. Violated: no result of a write is looked at, so that on a full disk the program reports success for every message, whatever is in the file (full_disk); and the packet has its name from the beginning (early_packet), so that a tosser that runs at the same time finds a part of it and puts it away as bad (early_bad, Ex.cut_packet)."},
 {"property": "C126", "status": "partial", "theorems": ["CM.part_right", "CM.part_says", "CM.index_grows", "CM.no_nodes_yet", "CM.Ex.half_index", "CM.Ex.index_conditions"], "note": "part_right: for every index, also one CrashList did not make, a lookup in any part of it finds the same as in the whole or nothing. part_says joins it with C49, index_grows shows that the index holds a part of the new one at every moment, if writing does not fail. Violated: the old index is emptied at first and the new one has its name from the beginning, so that in every run there is a moment at which the index is accepted and has no nodes (no_nodes_yet); a run that is stopped then leaves it so. Lookups are taken to read the index at one moment."},
 {"property": "C127", "status": "partial", "theorems": ["CM.lastread_partial", "CM.lastread_first", "CM.user_zero", "CM.lastread_false", "CM.Ex.lr_ops", "CM.Ex.lr_remembered", "CM.Ex.lr_wrong_number", "CM.Ex.lr_part_record"], "note": "lastread_partial: the answers are those of a book with one note for each user (Spec/LastRead.lean) and the file holds the book afterwards, for any number of programs, if the file is not empty or nothing is written for user 0. Violated otherwise: a base just opened takes user 0 for the user it looked up last, finds no record and reports an I/O error, however often it is tried (user_zero). lastread_first: reading, for every file. Conditions that are met by callers: the record carries the number of the user (else Ex.lr_wrong_number), the file has whole records only (else Ex.lr_part_record). A call is one step, as programs lock the base; the device does not fail; the file is shorter than 2^31 bytes. The programs of CrashMail do not call these functions; they are the interface of the library that comes with them."},
 {"property": "C128", "status": "partial", "theorems": ["CM.user_first", "CM.walk_all_partial", "CM.erased_found", "CM.Ex.empty_name", "CM.Ex.fu_case"], "note": "user_first: one call, for every file, checksum and start. walk_all_partial: all messages, for every checksum but that of erased records. Violated for this one, which is the checksum of the empty name: every erased record is reported as a message (erased_found). The device does not fail; fewer than 2^32 records. The loop around the calls is that of a program that uses the library; the programs of CrashMail do not."}
]}

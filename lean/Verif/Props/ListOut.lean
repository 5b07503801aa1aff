import Verif.Lemmas.ListOut
import Verif.Props.CrashStats
import Verif.Props.Outbound
/-! # C96, C97: CrashListOut shows the mail that waits -/

set_option linter.unusedSimpArgs false

namespace CM

/-- C96, for outbound directories in which all files named like mail are mail, names with at most 85
characters, addresses with at most 17 characters and flow files and requests without blank lines. The
list has a line for each file with mail for a node asked for and no other lines, in the order of the
addresses. It shows the kind, the address, the date and the number and size of what is to be sent; the totals are those of
the lines. -/
theorem listout_report_partial (e : LoEnv) (a : LoArgs) (asked : Node4D → Prop) (names : List Str) (lines : Str → List Str)
    (p : Option Str × Str → Bool)
    (hp : ∀ x, p x = true ↔ ∃ n t k, MailFor a.zone.toUInt16 x.1 x.2 n t k ∧ asked n)
    (hscan : e.disk.scan a.dir = some names) (hdir : a.dir.length ≤ 85) (hpat : PatternAsks a.pattern asked)
    (htidy : TidyOutbound e.disk a.dir a.zone.toUInt16 names)
    (hread : ReadableMail e.disk a.dir (outboundFiles e.disk.scan a.dir names) a.zone.toUInt16 asked lines)
    (hclock : ∀ t, ∃ date time, ClockKnows e.localtime t date time)
    (hsort : SortsBy (fun a b : LoEntry => compare4D a.node b.node) e.sort)
    (hshort : ∀ r : OutRow, r.Tells (outboundFiles e.disk.scan a.dir names) a.zone.toUInt16 asked → (print4D r.node).length ≤ 17) :
    ∃ (shown : List (OutRow × Str)) (tail : Str),
      listOut e a = .ok (.shown (e.title ++ loHead ++ (shown.map (·.2)).flatten ++ tail)) ∧
      (shown.map (·.1.file)).Perm (((outboundFiles e.disk.scan a.dir names).filter p).map fun x => relName x.1 x.2) ∧
      shown.Pairwise (fun x y => ¬ AddrBefore y.1.node x.1.node) ∧
      (∀ x ∈ shown, x.1.Tells (outboundFiles e.disk.scan a.dir names) a.zone.toUInt16 asked ∧
        RowShown e.disk e.localtime a.dir a.verbose lines x.1 x.2) ∧
      (shown = [] → tail = b!"Outbound directory is empty.\n") ∧
      (shown ≠ [] → (shown.map (·.1.bytes e.disk a.dir lines)).sum < 4284967296 →
        (shown.map (·.1.files e.disk a.dir lines)).sum < 2 ^ 32 → (shown.map (·.1.reqs lines)).sum < 2 ^ 32 →
        tail = (if a.verbose then [] else b!"\n") ++ totalsText (shown.map (·.1.bytes e.disk a.dir lines)).sum
          (shown.map (·.1.files e.disk a.dir lines)).sum (shown.map (·.1.reqs lines)).sum) := by
  obtain ⟨pat, h1, hask⟩ := pattern_asks hpat
  obtain ⟨t1, t2⟩ := loTop_all e.disk a pat hdir p (by
    intro x
    rw [hp]
    exact ⟨fun ⟨n, t, k, hm, ha⟩ => ⟨n, t, k, hm, (hask n).2 ha⟩, fun ⟨n, t, k, hm, ha⟩ => ⟨n, t, k, hm, (hask n).1 ha⟩⟩) names htidy
  obtain ⟨s1, s2⟩ := loSort_sorts e hsort (names.flatMap (loTop e.disk a pat)) a.zone.toUInt16 (by
    intro x hx
    obtain ⟨sub, file, ⟨⟨_, _, _, _, hz, _⟩, _⟩, _⟩ := t2 x hx
    exact hz)
  obtain ⟨shown, h2, h3, h4⟩ := loShowAll_eq e a LoEntry.row (fun r => r.bytes e.disk a.dir lines) (fun r => r.files e.disk a.dir lines)
    (fun r => r.reqs lines) (fun r text => r.Tells (outboundFiles e.disk.scan a.dir names) a.zone.toUInt16 asked ∧
      RowShown e.disk e.localtime a.dir a.verbose lines r text) (loSort e (names.flatMap (loTop e.disk a pat))) {} (by
    intro x hx t
    obtain ⟨sub, file, hx', hm⟩ := t2 x (s1.mem_iff.1 hx)
    have htell : x.row.Tells (outboundFiles e.disk.scan a.dir names) a.zone.toUInt16 asked :=
      ⟨(hask _).1 hx'.asked, (sub, file), hm, hx'.file, hx'.mail⟩
    obtain ⟨g1, text, g2, g3⟩ := loShow_eq e a pat asked _ lines hdir hread hclock hask t x sub file hx' hm (hshort _ htell)
    exact ⟨text, g2, g1, g3⟩)
  have hf : shown.map (·.1.file) = (loSort e (names.flatMap (loTop e.disk a pat))).map (·.file) := by
    have := congrArg (List.map OutRow.file) h3
    rw [List.map_map, List.map_map] at this
    exact this
  have hperm : (shown.map (·.1.file)).Perm (((outboundFiles e.disk.scan a.dir names).filter p).map fun x => relName x.1 x.2) := by
    rw [hf, ← t1]
    exact s1.map _
  have hsorted : shown.Pairwise (fun x y => ¬ AddrBefore y.1.node x.1.node) := by
    have : (shown.map (·.1)).Pairwise (fun x y : OutRow => ¬ AddrBefore y.node x.node) := by
      rw [h3, List.pairwise_map]
      exact s2
    rw [List.pairwise_map] at this
    exact this
  by_cases hnil : loSort e (names.flatMap (loTop e.disk a pat)) = []
  · have hs0 : shown = [] := by
      rw [hnil] at h3
      exact List.map_eq_nil_iff.1 h3
    refine ⟨shown, b!"Outbound directory is empty.\n", ?_, hperm, hsorted, h4, fun _ => rfl, fun h => absurd hs0 h⟩
    unfold listOut
    rw [h1]
    dsimp only [bind, Except.bind]
    rw [hscan]
    dsimp only
    rw [if_pos hnil, hs0]
    simp
  · have hs0 : shown ≠ [] := by
      rintro rfl
      exact hnil (List.map_eq_nil_iff.1 h3.symm)
    refine ⟨shown, _, by
      unfold listOut
      rw [h1]
      dsimp only [bind, Except.bind]
      rw [hscan]
      dsimp only
      rw [if_neg hnil, h2]
      dsimp only
      simp only [List.append_assoc]
      rfl, hperm, hsorted, h4, fun h => absurd h hs0, ?_⟩
    intro _ b1 b2 b3
    unfold totalsText
    rw [show ∀ x : UInt32, (0 : UInt32) + x = x from UInt32.zero_add, UInt32.zero_add, UInt32.zero_add, ofNat_small b2, ofNat_small b3,
      loUnit_small _ (by rw [ofNat_small (by omega)]; exact b1), ofNat_small (by omega)]
    simp only [List.append_assoc, List.cons_append, List.nil_append]

/-! ## C97: the files of CrashMail -/

/-- The name of the flavour. -/
def flavourName (type : UInt8) : Str :=
  if type = PKTS_HOLD then b!"Hold" else if type = PKTS_DIRECT then b!"Direct" else if type = PKTS_CRASH then b!"Crash" else b!"Normal"

theorem hexDigit_char (n : Nat) (h : n < 16) : HexChar (hexDigit n) ∧ hexCharValue (hexDigit n) = n := by
  have : ∀ n, n < 16 → HexChar (hexDigit n) ∧ hexCharValue (hexDigit n) = n := by unfold HexChar; decide
  exact this n h

theorem hexW_chars (w n : Nat) (hn : n < 16 ^ w) : (hexW w n).length = w ∧ (∀ c ∈ hexW w n, HexChar c) ∧
    ∀ acc, (hexW w n).foldl (fun n c => 16 * n + hexCharValue c) acc = acc * 16 ^ w + n := by
  induction w generalizing n with
  | zero => exact ⟨rfl, by simp [hexW], by intro acc; simp at hn; simp [hexW, hn]⟩
  | succ w ih =>
    obtain ⟨h1, h2, h3⟩ := ih (n / 16) (by rw [Nat.pow_succ] at hn; omega)
    obtain ⟨g1, g2⟩ := hexDigit_char (n % 16) (by omega)
    rw [hexW]
    refine ⟨by simp [h1], ?_, ?_⟩
    · intro c hc
      simp only [List.mem_append, List.mem_cons, List.not_mem_nil, or_false] at hc
      rcases hc with hc | rfl
      · exact h2 c hc
      · exact g1
    · intro acc
      rw [List.foldl_append, h3, List.foldl_cons, List.foldl_nil, g2, Nat.pow_succ]
      have : acc * (16 ^ w * 16) = 16 * (acc * 16 ^ w) := by rw [← Nat.mul_assoc, Nat.mul_comm]
      omega

theorem hex8_node (net node : UInt16) : Hex8 (hexW 4 net.toNat ++ hexW 4 node.toNat) (net.toNat * 65536 + node.toNat) := by
  obtain ⟨a1, a2, a3⟩ := hexW_chars 4 net.toNat net.toNat_lt
  obtain ⟨b1, b2, b3⟩ := hexW_chars 4 node.toNat node.toNat_lt
  refine ⟨by rw [List.length_append, a1, b1], ?_, ?_⟩
  · intro c hc
    rcases List.mem_append.1 hc with hc | hc
    · exact a2 c hc
    · exact b2 c hc
  · rw [List.foldl_append, a3, b3]
    omega

theorem hex8_point (p : UInt16) : Hex8 (hexW 8 p.toNat) p.toNat := by
  obtain ⟨a1, a2, a3⟩ := hexW_chars 8 p.toNat (Nat.lt_of_lt_of_le p.toNat_lt (by decide))
  exact ⟨a1, a2, by rw [a3]; omega⟩

/-- C97. What CrashMail puts into the outbound directory for a node - the list of bundles and the packet with
netmail - has a name that CrashListOut understands as mail of that flavour for that node. -/
theorem crashmail_files_listed (cfg : Config) (outbound : Str) (n : Node4D) (base : Str) (h : makeBaseName cfg outbound n = .ok base) :
    ∃ (first : Aka) (dir : Str) (sub : Option Str) (num : Str), cfg.akas.head? = some first ∧
      dir = mailDirOf first (mailDomain cfg n) outbound n.zone ∧ (∀ ext, base ++ ext = dir ++ 47 :: relName sub (num ++ ext)) ∧
      (∀ type, flowFile base type = dir ++ 47 :: relName sub (num ++ [46, flowLetter type, 108, 111]) ∧
        MailFor n.zone sub (num ++ [46, flowLetter type, 108, 111]) n (flavourName type) .flow) ∧
      (∀ type, type.toNat ≤ 4 → outFile base type = dir ++ 47 :: relName sub (num ++ [46, outLetter type, 117, 116]) ∧
        MailFor n.zone sub (num ++ [46, outLetter type, 117, 116]) n (flavourName type) .packet) := by
  obtain ⟨first, dir, ha, hdir, hb⟩ : ∃ first dir, cfg.akas.head? = some first ∧ dir = mailDirOf first (mailDomain cfg n) outbound n.zone ∧
      base = if n.point ≠ 0 then dir ++ [47] ++ hexW 4 n.net.toNat ++ hexW 4 n.node.toNat ++ b!".pnt" ++ [47] ++
      hexW 8 n.point.toNat else dir ++ [47] ++ hexW 4 n.net.toNat ++ hexW 4 n.node.toNat := by
    unfold makeBaseName at h
    cases ha : cfg.akas with
    | nil => rw [ha] at h; cases h
    | cons f r =>
      rw [ha] at h
      dsimp only at h
      refine ⟨f, _, rfl, rfl, ?_⟩
      by_cases hp : n.point ≠ 0
      · rw [if_pos hp] at h ⊢
        split at h
        · injection h with h
          exact h.symm
        · cases h
      · rw [if_neg hp] at h ⊢
        split at h
        · injection h with h
          exact h.symm
        · cases h
  have hfl : ∀ type : UInt8, (([46, flowLetter type, 108, 111] : Str).map lower, flavourName type, OutKind.flow) ∈ outboundExts := by
    have : ∀ type : UInt8, (([46, flowLetter type, 108, 111] : Str).map lower, flavourName type, OutKind.flow) ∈ outboundExts := by
      decide +kernel
    exact this
  have hol : ∀ type : UInt8, type.toNat ≤ 4 → (([46, outLetter type, 117, 116] : Str).map lower, flavourName type, OutKind.packet) ∈ outboundExts := by
    have : ∀ type : UInt8, type.toNat ≤ 4 → (([46, outLetter type, 117, 116] : Str).map lower, flavourName type, OutKind.packet) ∈ outboundExts := by
      decide +kernel
    exact this
  by_cases hpt : n.point = 0
  · rw [if_neg (by simp [hpt])] at hb
    have hbase : ∀ ext, base ++ ext = dir ++ 47 :: relName none (hexW 4 n.net.toNat ++ hexW 4 n.node.toNat ++ ext) := by
      intro ext
      rw [hb]
      simp [relName, List.append_assoc]
    refine ⟨first, dir, none, hexW 4 n.net.toNat ++ hexW 4 n.node.toNat, ha, hdir, hbase, ?_, ?_⟩
    · intro type
      exact ⟨hbase _, _, _, rfl, hfl type, rfl, hex8_node _ _, hpt⟩
    · intro type ht
      exact ⟨hbase _, _, _, rfl, hol type ht, rfl, hex8_node _ _, hpt⟩
  · rw [if_pos hpt] at hb
    have hbase : ∀ ext, base ++ ext = dir ++ 47 :: relName (some (hexW 4 n.net.toNat ++ hexW 4 n.node.toNat ++ b!".pnt"))
        (hexW 8 n.point.toNat ++ ext) := by
      intro ext
      rw [hb]
      simp [relName, List.append_assoc]
    refine ⟨first, dir, some (hexW 4 n.net.toNat ++ hexW 4 n.node.toNat ++ b!".pnt"), hexW 8 n.point.toNat, ha, hdir, hbase, ?_, ?_⟩
    · intro type
      exact ⟨hbase _, _, _, rfl, hfl type, rfl, ⟨_, _, rfl, by decide, hex8_node _ _⟩, hex8_point _⟩
    · intro type ht
      exact ⟨hbase _, _, _, rfl, hol type ht, rfl, ⟨_, _, rfl, by decide, hex8_node _ _⟩, hex8_point _⟩

/-- C97. A file is mail for one node only. -/
theorem mail_for_one {zone : UInt32} {sub : Option Str} {file : Str} {n n' : Node4D} {t t' : Str} {k k' : OutKind}
    (h : MailFor zone.toUInt16 sub file n t k) (h' : MailFor zone.toUInt16 sub file n' t' k') : n = n' ∧ t = t' ∧ k = k' := h.unique h'

theorem relName_inj {zone zone' : UInt16} {sub sub' : Option Str} {file file' : Str} {n n' : Node4D} {t t' : Str} {k k' : OutKind}
    (h : MailFor zone sub file n t k) (h' : MailFor zone' sub' file' n' t' k') (he : relName sub file = relName sub' file') :
    sub = sub' ∧ file = file' := by
  obtain ⟨a1, a2, _⟩ := h.noSlash
  obtain ⟨b1, b2, _⟩ := h'.noSlash
  have cut : ∀ (d f d' f' : Str), (47 : UInt8) ∉ d → (47 : UInt8) ∉ d' → d ++ 47 :: f = d' ++ 47 :: f' → d = d' ∧ f = f' := by
    intro d
    induction d with
    | nil =>
      intro f d' f' _ h2 h
      cases d' with
      | nil => simp at h; exact ⟨rfl, h⟩
      | cons c r =>
        simp only [List.nil_append, List.cons_append, List.cons.injEq] at h
        exact absurd (h.1 ▸ List.mem_cons_self ..) h2
    | cons x d ih =>
      intro f d' f' h1 h2 h
      cases d' with
      | nil =>
        simp only [List.nil_append, List.cons_append, List.cons.injEq] at h
        exact absurd (h.1 ▸ List.mem_cons_self ..) h1
      | cons c r =>
        simp only [List.cons_append, List.cons.injEq] at h
        obtain ⟨e1, e2⟩ := ih f r f' (fun hm => h1 (List.mem_cons_of_mem _ hm)) (fun hm => h2 (List.mem_cons_of_mem _ hm)) h.2
        exact ⟨by rw [h.1, e1], e2⟩
  cases sub with
  | none => cases sub' with
    | none => exact ⟨rfl, he⟩
    | some d' =>
      have : file = d' ++ 47 :: file' := he
      exact absurd (by rw [this]; simp) a1
  | some d => cases sub' with
    | none =>
      have : d ++ 47 :: file = file' := he
      exact absurd (by rw [← this]; simp) b1
    | some d' =>
      obtain ⟨e1, e2⟩ := cut d file d' file' (a2 d rfl) (b2 d' rfl) he
      exact ⟨by rw [e1], e2⟩

/-- C97. Mail for a node that was asked for is shown once for each file, with the address of the node. -/
theorem listout_shows_mail (names : List Str) (scan : Str → Option (List Str)) (dir : Str) (zone : UInt32) (asked : Node4D → Prop)
    (p : Option Str × Str → Bool) (hp : ∀ x, p x = true ↔ ∃ n t k, MailFor zone.toUInt16 x.1 x.2 n t k ∧ asked n)
    (shown : List (OutRow × Str))
    (hperm : (shown.map (·.1.file)).Perm (((outboundFiles scan dir names).filter p).map fun x => relName x.1 x.2))
    (htell : ∀ x ∈ shown, x.1.Tells (outboundFiles scan dir names) zone.toUInt16 asked)
    (sub : Option Str) (file : Str) (n : Node4D) (t : Str) (k : OutKind) (hm : MailFor zone.toUInt16 sub file n t k) (ha : asked n)
    (hin : (sub, file) ∈ outboundFiles scan dir names) :
    ∃ x ∈ shown, x.1.node = n ∧ x.1.type = t ∧ x.1.kind = k ∧ x.1.file = relName sub file := by
  have hmem : relName sub file ∈ shown.map (·.1.file) := by
    rw [hperm.mem_iff, List.mem_map]
    exact ⟨(sub, file), List.mem_filter.2 ⟨hin, (hp _).2 ⟨n, t, k, hm, ha⟩⟩, rfl⟩
  obtain ⟨x, hx, he⟩ := List.mem_map.1 hmem
  obtain ⟨_, y, _, hf, hy⟩ := htell x hx
  obtain ⟨e1, e2⟩ := relName_inj hy hm (hf.symm.trans he)
  rw [e1, e2] at hy
  obtain ⟨g1, g2, g3⟩ := hy.unique hm
  exact ⟨x, hx, g1, g2, g3, he⟩

namespace Ex

/-- A disk with the outbound directory `/out`; directories and files with sizes and contents are listed. -/
def loDisk (dirs : List (Str × List Str)) (files : List (Str × UInt32 × Str)) : LoDisk where
  scan := fun d => (dirs.find? fun x => x.1 == d).map (·.2)
  stat := fun f => (files.find? fun x => x.1 == f).map fun x => (x.2.1, 1000)
  content := fun f => (files.find? fun x => x.1 == f).map (·.2.2)

def loEnv (d : LoDisk) : LoEnv where
  disk := d
  localtime := fun _ => some ⟨⟨5, 10, 26⟩, 7, 30⟩
  sort := isort fun a b => compare4D a.node b.node
  title := b!"CrashListOut\n"

theorem loEnv_clock (d : LoDisk) (t : UInt64) : ∃ date time, ClockKnows (loEnv d).localtime t date time :=
  ⟨b!"05-Nov-26", b!"07:30", _, rfl, by decide, by decide, by decide, by decide, by decide, by decide, by decide⟩

/-- Mail for 2:5000/2, for a point of 2:5000/1 and for 2:5000/1 itself. -/
def fullOut : LoDisk := loDisk
  [(b!"/out", [b!"13880002.req", b!"13880001.pnt", b!"13880001.FLO", b!"readme.txt", b!"13880002.out"]),
   (b!"/out/13880001.pnt", [b!"00000005.hlo"])]
  [(b!"/out/13880002.req", 13, b!"FILES\nNODELIST\n"), (b!"/out/13880001.pnt", 4096, []), (b!"/out/13880001.FLO", 40, b!"^/out/0001.mo0\r\nlist.zip \n#/gone\n"),
   (b!"/out/readme.txt", 10, b!"Read me.\n"), (b!"/out/13880002.out", 2500000, b!"packet\n"), (b!"/out/13880001.pnt/00000005.hlo", 5, b!"-a.zip\n"),
   (b!"/out/0001.mo0", 3000000, []), (b!"/out/list.zip", 2000000, []), (b!"/out/13880001.pnt/a.zip", 1048576, [])]

/-- What its files consist of. -/
def fullLines (f : Str) : List Str :=
  if f = b!"13880002.req" then [b!"FILES", b!"NODELIST"] else if f = b!"13880001.FLO" then [b!"^/out/0001.mo0", b!"list.zip", b!"#/gone"]
  else if f = b!"13880001.pnt/00000005.hlo" then [b!"-a.zip"] else []

def fullNames : List Str := [b!"13880002.req", b!"13880001.pnt", b!"13880001.FLO", b!"readme.txt", b!"13880002.out"]

theorem fullFiles : outboundFiles fullOut.scan b!"/out" fullNames =
    [(none, b!"13880002.req"), (some b!"13880001.pnt", b!"00000005.hlo"), (none, b!"13880001.pnt"), (none, b!"13880001.FLO"),
     (none, b!"readme.txt"), (none, b!"13880002.out")] := by decide

theorem fullTidy : TidyOutbound fullOut b!"/out" 2 fullNames where
  dirs := by
    intro f hf hp
    simp only [fullNames, List.mem_cons, List.not_mem_nil, or_false] at hf
    rcases hf with rfl | rfl | rfl | rfl | rfl
    case inr.inl => exact ⟨5000, 1, b!"13880001", b!".pnt", by decide, by decide, by unfold Hex8 HexChar; decide⟩
    all_goals exact absurd hp (by decide)
  files := by
    intro x hx hl he
    rw [fullFiles] at hx
    simp only [List.mem_cons, List.not_mem_nil, or_false] at hx
    rcases hx with rfl | rfl | rfl | rfl | rfl | rfl
    · exact ⟨⟨2, 5000, 2, 0⟩, _, _, b!"13880002", b!".req", by decide, .head _, rfl, by unfold Hex8 HexChar; decide, rfl⟩
    · exact ⟨⟨2, 5000, 1, 5⟩, b!"Hold", .flow, b!"00000005", b!".hlo", by decide, by decide, rfl,
        ⟨b!"13880001", b!".pnt", by decide, by decide, by unfold Hex8 HexChar; decide⟩, by unfold Hex8 HexChar; decide⟩
    · exact absurd he (by decide)
    · exact ⟨⟨2, 5000, 1, 0⟩, b!"Normal", .flow, b!"13880001", b!".FLO", by decide, by decide, rfl, by unfold Hex8 HexChar; decide, rfl⟩
    · exact absurd hl (by decide)
    · exact ⟨⟨2, 5000, 2, 0⟩, b!"Normal", .packet, b!"13880002", b!".out", by decide, by decide, rfl, by unfold Hex8 HexChar; decide, rfl⟩
  exist := by
    intro x hx hl
    rw [fullFiles] at hx
    simp only [List.mem_cons, List.not_mem_nil, or_false] at hx
    rcases hx with rfl | rfl | rfl | rfl | rfl | rfl
    case inr.inr.inr.inr.inl => exact absurd hl (by decide)
    all_goals decide

theorem mailLine_of (t ws : Str) (h : (NoNul t ∧ (10 : UInt8) ∉ t ∧ (t.getLast?.any fun c => 33 ≤ c && c < 128) = true) ∧ (∀ c ∈ ws, c < 33 ∧ c ≠ 10 ∧ c ≠ 0) ∧
    t.length + ws.length ≤ 198) : MailLine t ws := by
  obtain ⟨⟨h1, h2, h3⟩, h4, h5⟩ := h
  refine ⟨⟨h1, h2, ?_⟩, h4, h5⟩
  cases hl : t.getLast? with
  | none => rw [hl] at h3; cases h3
  | some c =>
    rw [hl] at h3
    simp only [Option.any_some, Bool.and_eq_true, decide_eq_true_eq] at h3
    exact ⟨c, rfl, h3⟩

theorem fullRead (asked : Node4D → Prop) : ReadableMail fullOut b!"/out" (outboundFiles fullOut.scan b!"/out" fullNames) 2 asked fullLines where
  lines := by
    rintro r ⟨_, x, hx, hf, hm⟩ hk
    rw [fullFiles] at hx
    rw [hf]
    have hm' := (MailFor.node (zone := 2) hm).2.2.1
    simp only [List.mem_cons, List.not_mem_nil, or_false] at hx
    rcases hx with rfl | rfl | rfl | rfl | rfl | rfl
    · refine ⟨[(b!"FILES", []), (b!"NODELIST", [])], by decide, by decide, ?_⟩
      intro l hl
      simp only [List.mem_cons, List.not_mem_nil, or_false] at hl
      rcases hl with rfl | rfl <;> exact mailLine_of _ _ (by decide)
    · refine ⟨[(b!"-a.zip", [])], by decide, by decide, ?_⟩
      intro l hl
      simp only [List.mem_cons, List.not_mem_nil, or_false] at hl
      rcases hl with rfl
      exact mailLine_of _ _ (by decide)
    · exact ⟨[], by decide, by decide, by simp⟩
    · refine ⟨[(b!"^/out/0001.mo0", b!"\r"), (b!"list.zip", b!" "), (b!"#/gone", [])], by decide, by decide, ?_⟩
      intro l hl
      simp only [List.mem_cons, List.not_mem_nil, or_false] at hl
      rcases hl with rfl | rfl | rfl <;> exact mailLine_of _ _ (by decide)
    · simp [outboundExts] at hm'
    · exfalso
      have := hm.unique (zone := 2) (n' := ⟨2, 5000, 2, 0⟩) (t' := b!"Normal") (k' := .packet)
        ⟨b!"13880002", b!".out", by decide, by decide, rfl, by unfold Hex8 HexChar; decide, rfl⟩
      exact hk this.2.2
  names := by
    rintro r ⟨_, x, hx, hf, hm⟩ hk t ht
    rw [hf] at ht
    rw [fullFiles] at hx
    simp only [List.mem_cons, List.not_mem_nil, or_false] at hx
    rcases hx with rfl | rfl | rfl | rfl | rfl | rfl <;> (revert t; decide)

theorem fullShort (r : OutRow) (h : r.Tells (outboundFiles fullOut.scan b!"/out" fullNames) 2 (fun _ => True)) : (print4D r.node).length ≤ 17 := by
  obtain ⟨_, x, hx, hf, hm⟩ := h
  have hn := (MailFor.node (zone := 2) hm).1
  rw [fullFiles] at hx
  simp only [List.mem_cons, List.not_mem_nil, or_false] at hx
  rw [← hn]
  rcases hx with rfl | rfl | rfl | rfl | rfl | rfl <;> decide +kernel

/-- The report for this outbound directory. -/
theorem listout_full : listOut (loEnv fullOut) { dir := b!"/out" } = .ok (.shown
    b!"CrashListOut
Type     Node              Last Change          B/F   File

Normal   2:5000/1          05-Nov-26 07:30     4M/2   13880001.FLO
Hold     2:5000/1.5        05-Nov-26 07:30     1M/1   13880001.pnt/00000005.hlo
Request  2:5000/2          05-Nov-26 07:30      -/2   13880002.req
Normal   2:5000/2          05-Nov-26 07:30     2M/1   13880002.out

Totally 5M bytes in 3 files to send, 2 requests.
") := by decide +kernel

-- the hypotheses of the theorem hold for it
example (p : Option Str × Str → Bool) (hp : ∀ x, p x = true ↔ ∃ n t k, MailFor (2 : UInt32).toUInt16 x.1 x.2 n t k ∧ True) :=
  listout_report_partial (loEnv fullOut) { dir := b!"/out" } (fun _ => True) fullNames fullLines p hp (by decide) (by decide)
    (.inl ⟨.inl rfl, fun _ => trivial⟩) fullTidy (fullRead _) (loEnv_clock _) (isort_sortsBy _) fullShort

/-- With the pattern `2:5000/1.*` and `VERBOSE`. -/
theorem listout_verbose : listOut (loEnv fullOut) { dir := b!"/out", pattern := some b!"2:5000/1.*", verbose := true } = .ok (.shown
    b!"CrashListOut
Type     Node              Last Change          B/F   File

Normal   2:5000/1          05-Nov-26 07:30     4M/2   13880001.FLO
 /out/0001.mo0                                   2M   (To be truncated)
 list.zip                                        1M   
 /gone                                    Not found   (To be truncated)

Hold     2:5000/1.5        05-Nov-26 07:30     1M/1   13880001.pnt/00000005.hlo
 a.zip                                           1M   (To be deleted)

Totally 5M bytes in 3 files to send, 0 requests.
") := by decide +kernel

/-- CrashMail marks a bundle that is to be deleted after it was sent; the list says that it will be truncated. -/
theorem listout_wrong_fate : addFlow false .delete b!"/out/0001.mo0" [] = .ok b!"^/out/0001.mo0\n" ∧
    listOut (loEnv (loDisk [(b!"/out", [b!"13880001.flo"])] [(b!"/out/13880001.flo", 15, b!"^/out/0001.mo0\n"), (b!"/out/0001.mo0", 3000000, [])]))
      { dir := b!"/out", verbose := true } = .ok (.shown
    b!"CrashListOut
Type     Node              Last Change          B/F   File

Normal   2:5000/1          05-Nov-26 07:30     2M/1   13880001.flo
 /out/0001.mo0                                   2M   (To be truncated)

Totally 2M bytes in 1 files to send, 0 requests.
") := by
  constructor
  · decide +kernel
  · decide +kernel

/-- C96 (violated). Addresses are cut after 17 characters: this is mail for 2:5020/10420.65535. -/
theorem listout_long_address : listOut (loEnv (loDisk [(b!"/out", [b!"139c28b4.pnt"]), (b!"/out/139c28b4.pnt", [b!"0000ffff.cut"])]
      [(b!"/out/139c28b4.pnt/0000ffff.cut", 100, [])])) { dir := b!"/out" } = .ok (.shown
    b!"CrashListOut
Type     Node              Last Change          B/F   File

Crash    2:5020/10420.6553 05-Nov-26 07:30     0M/1   139c28b4.pnt/0000ffff.cut

Totally 0M bytes in 0 files to send, 0 requests.
") ∧ MailFor 2 (some b!"139c28b4.pnt") b!"0000ffff.cut" ⟨2, 5020, 10420, 65535⟩ b!"Crash" .packet := by
  refine ⟨by decide +kernel, b!"0000ffff", b!".cut", by decide, by decide, rfl, ⟨b!"139c28b4", b!".pnt", by decide, by decide, ?_⟩, ?_⟩ <;>
    (unfold Hex8 HexChar; decide)

/-- C96 (violated). A file that is not mail is shown as mail for 2:0/2988, because `bac` is a hexadecimal number. -/
theorem listout_no_mail : listOut (loEnv (loDisk [(b!"/out", [b!"backlist.flo"])] [(b!"/out/backlist.flo", 100, [])])) { dir := b!"/out" } = .ok (.shown
    b!"CrashListOut
Type     Node              Last Change          B/F   File

Normal   2:0/2988          05-Nov-26 07:30     0M/0   backlist.flo

Totally 0M bytes in 0 files to send, 0 requests.
") ∧ ¬ ∃ n t k, MailFor 2 none b!"backlist.flo" n t k := by
  refine ⟨by decide +kernel, ?_⟩
  rintro ⟨n, t, k, num, ext, he, hx, _, ⟨h8, hc, _⟩, _⟩
  have : num = b!"backlist" := by
    have := congrArg (List.take 8) he
    rw [List.take_append_of_le_length (Nat.le_of_eq h8.symm), ← h8, List.take_length, h8] at this
    rw [← this]; rfl
  have h107 := hc 107 (by rw [this]; decide)
  revert h107
  unfold HexChar
  decide

/-- C96 (violated). All sizes up to 4284967295 are shown in whole megabytes, so everything below one megabyte is 0. -/
theorem listout_small_sizes (i : UInt32) (h : i.toNat < 1048576) : loUnit i = b!"0M" := by
  rw [loUnit_small i (by omega), Nat.div_eq_of_lt h]
  rfl

/-- C96 (violated). An empty line in a flow file: `strip` reads the byte before the string. -/
theorem listout_blank_line : listOut (loEnv (loDisk [(b!"/out", [b!"13880001.flo"])] [(b!"/out/13880001.flo", 9, b!"^/a/b\n  \n")])) { dir := b!"/out" } =
    .error .oobRead := by decide +kernel

/-- C96 (violated). Packets do not count in the totals: there is a packet of 300 megabytes to send. -/
theorem listout_packet_total : listOut (loEnv (loDisk [(b!"/out", [b!"13880001.cut"])] [(b!"/out/13880001.cut", 314572800, [])])) { dir := b!"/out" } =
    .ok (.shown
    b!"CrashListOut
Type     Node              Last Change          B/F   File

Crash    2:5000/1          05-Nov-26 07:30   300M/1   13880001.cut

Totally 0M bytes in 0 files to send, 0 requests.
") := by decide +kernel

-- C97: the list of bundles for a point
example : makeBaseName twoNets b!"/out/" ⟨2, 5000, 1, 5⟩ = .ok b!"/out/13880001.pnt/00000005" ∧
    flowFile b!"/out/13880001.pnt/00000005" PKTS_HOLD = b!"/out/13880001.pnt/00000005.hlo" := by
  constructor <;> decide +kernel

end Ex

end CM

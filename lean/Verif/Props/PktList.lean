import Verif.Props.PktRound
/-! # C12: a whole run of the packet writer -/

set_option linter.unusedSimpArgs false
namespace CM

/-- A request to write a message: where to, as whom, in which class, and the packet header data used
if a new packet is needed. -/
structure WOp where
  dest : Node4D
  orig : Node4D
  type : UInt8
  pw : Str
  date : PktDate
  raw : RawMsg

/-- Messages with the same key belong in the same packets. -/
def WOp.key (o : WOp) : Node4D × Node4D × UInt8 := (o.dest, o.orig, o.type)
def Pkt.key (p : Pkt) : Node4D × Node4D × UInt8 := (p.dest, p.orig, p.type)

/-- The code. -/
def writeOp (maxSize : Nat) (st : PktState) (o : WOp) : PktState :=
  writeMsg maxSize o.dest o.orig o.type (pktHeader o.orig o.dest o.pw o.date) o.raw.bytes st

/-- Writing a netmail is such a request. -/
theorem writeNetMail_op (maxSize : Nat) (t : PktDate) (nodes : List ConfigNode) (m : MemMsg) (dest aka : Node4D)
    (st : PktState) : writeNetMail maxSize t nodes m dest aka st = writeOp maxSize st
      ⟨dest, fromAddr (findNode nodes dest) aka, netmailClass (findNode nodes dest) m.type,
        createPassword (findNode nodes dest) (netmailClass (findNode nodes dest) m.type), t, toRaw m m.text.flatten⟩ := by
  unfold writeNetMail writeOp
  rw [← toRaw_bytes, List.append_assoc]

/-- Writing an echomail is such a request. -/
theorem writeEchoMail_op (maxSize : Nat) (t : PktDate) (m : MemMsg) (node : ConfigNode) (aka : Node4D)
    (st : PktState) (sb : Str) (h : echoSeenBy m node aka = .ok sb) :
    writeEchoMail maxSize t m node aka st = .ok (writeOp maxSize st
      ⟨node.node, fromAddr (some node) aka, PKTS_ECHOMAIL, createPassword (some node) PKTS_ECHOMAIL, t,
        toRaw { m with
          dest := node.node
          orig := fromAddr (some node) aka } (echoText m sb)⟩) := by
  unfold writeEchoMail writeOp
  rw [h]
  simp only [bind, Except.bind]
  rw [← toRaw_bytes]
  simp only [echoText, List.append_assoc, List.cons_append, List.nil_append]

/-- Messages with key `k`, in order, in a list of packets. -/
def inKey (k : Node4D × Node4D × UInt8) (g : List (Pkt × List WOp)) : List WOp :=
  (g.filter fun e => e.1.key = k).flatMap (·.2)

/-- A packet holds exactly the given messages. -/
structure PktHolds (e : Pkt × List WOp) (tail : List UInt8) : Prop where
  some : e.2 ≠ []
  data : ∃ o ∈ e.2, e.1.data = pktHeader e.1.orig e.1.dest o.pw o.date ++ (e.2.flatMap (fun o => o.raw.bytes) ++ tail)
  key : ∀ o ∈ e.2, o.key = e.1.key
  zones : e.1.dest.zone ≠ 0 ∧ e.1.orig.zone ≠ 0

structure WInv (st : PktState) (ops : List WOp) (og fg : List (Pkt × List WOp)) : Prop where
  opened : st.opened = og.map (·.1)
  finished : st.finished = fg.map (·.1)
  oHolds : ∀ e ∈ og, PktHolds e []
  fHolds : ∀ e ∈ fg, PktHolds e [0, 0]
  distinct : og.Pairwise (fun a b => a.1.key ≠ b.1.key)
  all : ∀ k, inKey k (fg ++ og) = ops.filter (fun o => o.key = k)

theorem isFor_iff (o : WOp) (p : Pkt) (ho : o.dest.zone ≠ 0 ∧ o.orig.zone ≠ 0) (hp : p.dest.zone ≠ 0 ∧ p.orig.zone ≠ 0) :
    Pkt.isFor o.dest o.orig o.type p = true ↔ p.key = o.key := by
  simp only [Pkt.isFor, Bool.and_eq_true, beq_iff_eq, Pkt.key, WOp.key, Prod.mk.injEq,
    compare4D_eq_zero_iff_eq _ _ ho.1 hp.1, compare4D_eq_zero_iff_eq _ _ ho.2 hp.2]
  constructor
  · rintro ⟨⟨h1, h2⟩, h3⟩; exact ⟨h1.symm, h2.symm, h3.symm⟩
  · rintro ⟨h1, h2, h3⟩; exact ⟨⟨h1.symm, h2.symm⟩, h3.symm⟩

theorem inKey_append (k) (a b : List (Pkt × List WOp)) : inKey k (a ++ b) = inKey k a ++ inKey k b := by
  simp [inKey]

theorem inKey_none (k) (a : List (Pkt × List WOp)) (h : ∀ e ∈ a, e.1.key ≠ k) : inKey k a = [] := by
  unfold inKey
  rw [List.filter_eq_nil_iff.2 (by intro e he; simpa using h e he)]
  rfl

theorem inKey_one (k) (e : Pkt × List WOp) : inKey k [e] = if e.1.key = k then e.2 else [] := by
  unfold inKey
  by_cases h : e.1.key = k <;> simp [List.filter_cons, h]

theorem appendFirst_split (q : Pkt → Bool) (b : List UInt8) (l : List Pkt) (p : Pkt) (r : List Pkt)
    (hl : ∀ x ∈ l, q x = false) (hp : q p = true) :
    appendFirst q b (l ++ p :: r) = l ++ { p with data := p.data ++ b } :: r := by
  induction l with
  | nil => simp [appendFirst, hp]
  | cons x l ih =>
    have h := hl x (by simp)
    simp only [List.cons_append, appendFirst, h, Bool.false_eq_true, if_false]
    rw [ih (fun y hy => hl y (by simp [hy]))]

theorem writeOp_inv (maxSize : Nat) (st : PktState) (ops : List WOp) (og fg : List (Pkt × List WOp)) (o : WOp)
    (h : WInv st ops og fg) (ho : o.dest.zone ≠ 0 ∧ o.orig.zone ≠ 0) :
    ∃ og' fg', WInv (writeOp maxSize st o) (ops ++ [o]) og' fg' := by
  have hq : ∀ e ∈ og, (Pkt.isFor o.dest o.orig o.type e.1 = true ↔ e.1.key = o.key) :=
    fun e he => isFor_iff o e.1 ho (h.oHolds e he).zones
  let new : Pkt × List WOp := (⟨o.dest, o.orig, o.type, pktHeader o.orig o.dest o.pw o.date ++ o.raw.bytes⟩, [o])
  have hnew : PktHolds new [] := ⟨by simp [new], ⟨o, by simp [new], by simp [new]⟩, by simp [new, WOp.key, Pkt.key], ho⟩
  have hnk : new.1.key = o.key := rfl
  have hfil : ∀ k, (ops ++ [o]).filter (fun o => o.key = k) = ops.filter (fun o => o.key = k) ++ (if o.key = k then [o] else []) := by
    intro k; rw [List.filter_append]; by_cases hk : o.key = k <;> simp [hk]
  unfold writeOp writeMsg
  simp only
  rw [h.opened]
  cases hf : (og.map (·.1)).find? (Pkt.isFor o.dest o.orig o.type) with
  | none =>
    have hno : ∀ e ∈ og, e.1.key ≠ o.key := by
      intro e he hk
      have := List.find?_eq_none.1 hf e.1 (List.mem_map_of_mem he)
      exact this ((hq e he).2 hk)
    refine ⟨og ++ [new], fg, ⟨by simp [new], h.finished, ?_, h.fHolds, ?_, ?_⟩⟩
    · intro e he
      simp only [List.mem_append, List.mem_singleton] at he
      rcases he with he | rfl
      · exact h.oHolds e he
      · exact hnew
    · rw [List.pairwise_append]
      refine ⟨h.distinct, by simp, ?_⟩
      intro a ha b hb
      simp only [List.mem_singleton] at hb; subst hb
      rw [hnk]; exact hno a ha
    · intro k
      rw [← List.append_assoc, inKey_append, h.all k, hfil, inKey_one, hnk]
  | some p =>
    obtain ⟨hqp, l, r, e1, e2⟩ := List.find?_eq_some_iff_append.1 hf
    -- split the ghost list the same way
    obtain ⟨gl, gr', rfl, g1, g2⟩ := List.map_eq_append_iff.1 e1
    obtain ⟨ge, gr, rfl, rfl, rfl⟩ := List.map_eq_cons_iff.1 g2
    subst g1
    have hge : ge.1.key = o.key := (hq ge (by simp)).1 hqp
    have hl : ∀ e ∈ gl, e.1.key ≠ o.key := by
      intro e he hk
      have := e2 e.1 (List.mem_map_of_mem he)
      rw [(hq e (by simp [he])).2 hk] at this
      simp at this
    obtain ⟨dl, dr, dlr⟩ := List.pairwise_append.1 h.distinct
    have hr : ∀ e ∈ gr, e.1.key ≠ o.key := by
      intro e he hk
      exact (List.pairwise_cons.1 dr).1 e he (hge.trans hk.symm)
    simp only
    split
    · -- the packet is full: finish it and start a new one
      have her : (List.map (fun x => x.1) gl ++ List.map (fun x => x.1) (ge :: gr)).eraseP (Pkt.isFor o.dest o.orig o.type)
          = List.map (fun x => x.1) (gl ++ gr) := by
        rw [List.eraseP_append_right _ (by
          intro b hb
          obtain ⟨e, he, rfl⟩ := List.mem_map.1 hb
          rw [(hq e (by simp [he]))]; exact hl e he)]
        simp [List.eraseP_cons, hqp]
      refine ⟨(gl ++ gr) ++ [new], fg ++ [(ge.1.finish, ge.2)], ⟨?_, by simp [h.finished], ?_, ?_, ?_, ?_⟩⟩
      · show _ = _
        rw [List.map_append (l₁ := gl) (l₂ := ge :: gr), her]
        simp [new]
      · intro e he
        simp only [List.mem_append, List.mem_singleton] at he
        rcases he with (he | he) | rfl
        · exact h.oHolds e (by simp [he])
        · exact h.oHolds e (by simp [he])
        · exact hnew
      · intro e he
        simp only [List.mem_append, List.mem_singleton] at he
        rcases he with he | rfl
        · exact h.fHolds e he
        · have hh := h.oHolds ge (by simp)
          obtain ⟨x, hx, hd⟩ := hh.data
          exact ⟨hh.some, ⟨x, hx, by simp only [Pkt.finish]; rw [hd]; simp⟩, hh.key, hh.zones⟩
      · rw [List.pairwise_append]
        refine ⟨?_, by simp, ?_⟩
        · rw [List.pairwise_append]
          exact ⟨dl, (List.pairwise_cons.1 dr).2, fun a ha b hb => dlr a ha b (by simp [hb])⟩
        · intro a ha b hb
          simp only [List.mem_singleton] at hb; subst hb
          rw [hnk]
          simp only [List.mem_append] at ha
          rcases ha with ha | ha
          · exact hl a ha
          · exact hr a ha
      · intro k
        have hall := h.all k
        rw [hfil, ← hall]
        simp only [List.append_assoc, inKey_append, inKey_one, hnk]
        have e3 : inKey k (ge :: gr) = (if ge.1.key = k then ge.2 else []) ++ inKey k gr := by
          rw [show ge :: gr = [ge] ++ gr from rfl, inKey_append, inKey_one]
        rw [e3]
        have e4 : (ge.1.finish).key = ge.1.key := rfl
        rw [e4, hge]
        by_cases hk : o.key = k
        · subst hk
          rw [inKey_none o.key gl hl, inKey_none o.key gr hr]; simp [new]
        · simp [hk]
    · -- append to the packet
      rw [List.map_append, List.map_cons]
      rw [appendFirst_split _ _ _ _ _ (by
        intro x hx
        obtain ⟨e, he, rfl⟩ := List.mem_map.1 hx
        rw [Bool.eq_false_iff]
        exact fun hx => hl e he ((hq e (by simp [he])).1 hx)) hqp]
      refine ⟨gl ++ ({ ge.1 with data := ge.1.data ++ o.raw.bytes }, ge.2 ++ [o]) :: gr, fg,
        ⟨by simp, h.finished, ?_, h.fHolds, ?_, ?_⟩⟩
      · intro e he
        simp only [List.mem_append, List.mem_cons] at he
        rcases he with he | rfl | he
        · exact h.oHolds e (by simp [he])
        · have hh := h.oHolds ge (by simp)
          obtain ⟨x, hx, hd⟩ := hh.data
          refine ⟨by simp, ⟨x, by simp [hx], by simp only; rw [hd]; simp⟩, ?_, hh.zones⟩
          intro y hy
          simp only [List.mem_append, List.mem_singleton] at hy
          rcases hy with hy | rfl
          · exact hh.key y hy
          · exact hge.symm
        · exact h.oHolds e (by simp [he])
      · rw [List.pairwise_append]
        refine ⟨dl, ?_, ?_⟩
        · rw [List.pairwise_cons]
          exact ⟨fun b hb => (List.pairwise_cons.1 dr).1 b hb, (List.pairwise_cons.1 dr).2⟩
        · intro a ha b hb
          simp only [List.mem_cons] at hb
          rcases hb with rfl | hb
          · exact dlr a ha ge (by simp)
          · exact dlr a ha b (by simp [hb])
      · intro k
        have hall := h.all k
        rw [hfil, ← hall]
        simp only [inKey_append]
        have e3 : ∀ x : Pkt × List WOp, inKey k (x :: gr) = (if x.1.key = k then x.2 else []) ++ inKey k gr := by
          intro x
          rw [show x :: gr = [x] ++ gr from rfl, inKey_append, inKey_one]
        rw [e3, e3]
        have e4 : ({ ge.1 with data := ge.1.data ++ o.raw.bytes } : Pkt).key = ge.1.key := rfl
        simp only [e4, hge]
        by_cases hk : o.key = k
        · subst hk
          rw [inKey_none o.key gl hl, inKey_none o.key gr hr]; simp
        · simp [hk]

/-- C12. After any run of the packet writer and the final closing of all packets: no packet is left
open, every packet is a header followed by the messages it holds, all for the packet's addresses and
class, and two zero bytes; and for each destination, origin and class, the packets, in the order they
were finished, hold exactly the messages written for it, in order: nothing is lost, duplicated,
reordered or sent to somebody else. -/
theorem packets_hold (maxSize : Nat) (ops : List WOp) (hz : ∀ o ∈ ops, o.dest.zone ≠ 0 ∧ o.orig.zone ≠ 0) :
    let st := closePackets (ops.foldl (writeOp maxSize) {})
    st.opened = [] ∧ ∃ g : List (Pkt × List WOp), st.finished = g.map (·.1) ∧ (∀ e ∈ g, PktHolds e [0, 0]) ∧
      ∀ k, inKey k g = ops.filter (fun o => o.key = k) := by
  have gen : ∀ (ops done : List WOp) (st : PktState) (og fg), (∀ o ∈ ops, o.dest.zone ≠ 0 ∧ o.orig.zone ≠ 0) →
      WInv st done og fg → ∃ og' fg', WInv (ops.foldl (writeOp maxSize) st) (done ++ ops) og' fg' := by
    intro ops
    induction ops with
    | nil => intro done st og fg _ h; exact ⟨og, fg, by simpa using h⟩
    | cons o ops ih =>
      intro done st og fg hz h
      obtain ⟨og', fg', h'⟩ := writeOp_inv maxSize st done og fg o h (hz o (by simp))
      obtain ⟨og2, fg2, h2⟩ := ih (done ++ [o]) _ og' fg' (fun x hx => hz x (by simp [hx])) h'
      exact ⟨og2, fg2, by simpa using h2⟩
  obtain ⟨og, fg, h⟩ := gen ops [] {} [] [] hz ⟨rfl, rfl, by simp, by simp, by simp, by simp [inKey]⟩
  refine ⟨rfl, fg ++ og.map (fun e => (e.1.finish, e.2)), ?_, ?_, ?_⟩
  · simp [closePackets, h.finished, h.opened]
  · intro e he
    simp only [List.mem_append, List.mem_map] at he
    rcases he with he | ⟨x, hx, rfl⟩
    · exact h.fHolds e he
    · have hh := h.oHolds x hx
      obtain ⟨y, hy, hd⟩ := hh.data
      exact ⟨hh.some, ⟨y, hy, by simp only [Pkt.finish]; rw [hd]; simp⟩, hh.key, hh.zones⟩
  · intro k
    have := h.all k
    simp only [List.nil_append] at this
    rw [← this, inKey_append, inKey_append]
    congr 1
    unfold inKey
    rw [List.filter_map, List.flatMap_map]
    rfl

theorem fixZone_id (table : List Node4D) (dz : UInt16) (a : Node4D) (h : a.zone ≠ 0) : fixZone table dz a = a := by
  simp [fixZone, h]

/-- C12. A finished packet, read by the system it is for, gives exactly the messages it holds, in
order, as coming from the packet's sender. -/
theorem packet_read (cfg : PktCfg) (junk : List UInt8) (e : Pkt × List WOp) (h : PktHolds e [0, 0])
    (hj : junk.length = 14) (hraw : ∀ o ∈ e.2, o.raw.OK)
    (hpt : e.1.orig.point = 0 ∨ e.1.orig.net ≠ 0xffff)
    (hto : cfg.checkDest = true → cfg.noSecurity = false → ∃ a ∈ cfg.akas, compare4D a.node e.1.dest = 0)
    (hpw : ∀ o ∈ e.2, NoNul o.pw ∧ o.pw.length ≤ 8 ∧
      (cfg.noSecurity = true ∨ ∀ n, findNode cfg.nodes e.1.orig = some n →
        n.packetPW = [] ∨ o.pw.map lower = n.packetPW.map lower))
    (ms : List MemMsg) (hms : e.2.map (fun o => interpMsg cfg e.1.orig e.1.dest o.raw) = ms.map fun m => .ok (some m)) :
    readPkt cfg (fun _ _ => true) (fun _ => false) junk e.1.data = .ok (some (.done, ms)) := by
  obtain ⟨o, ho, hd⟩ := h.data
  obtain ⟨h18, hadr⟩ := pktHeader_addresses e.1.orig e.1.dest o.pw o.date (Or.inl h.zones.2) hpt
  have hlen := pktHeader_length e.1.orig e.1.dest o.pw o.date
  have hsnd : pktSender cfg (pktHeader e.1.orig e.1.dest o.pw o.date) = e.1.orig := by
    unfold pktSender
    rw [List.take_of_length_le (by omega), hadr]
    exact fixZone_id _ _ _ h.zones.2
  have hrcv : pktReceiver cfg (pktHeader e.1.orig e.1.dest o.pw o.date) = e.1.dest := by
    unfold pktReceiver
    rw [List.take_of_length_le (by omega), hadr]
    exact fixZone_id _ _ _ h.zones.1
  obtain ⟨p1, p2, p3⟩ := hpw o ho
  have hpass := pktHeader_password e.1.orig e.1.dest o.pw o.date p1 p2
  generalize pktHeader e.1.orig e.1.dest o.pw o.date = H at *
  rw [hd, show e.2.flatMap (fun o => o.raw.bytes) = (e.2.map (·.raw)).flatMap RawMsg.bytes by rw [List.flatMap_map]]
  refine readPkt_wellformed cfg junk H (e.2.map (·.raw)) [0, 0] hj hlen ?_ (by rw [hadr]; exact hto) ?_ (Or.inl ⟨[], rfl⟩) ?_ ms ?_
  · rw [u16At_of_word (by omega), h18]; rfl
  · intro r hr
    obtain ⟨x, hx, rfl⟩ := List.mem_map.1 hr
    exact hraw x hx
  · rw [hsnd, hpass]
    intro area
    unfold wrongPassword
    rcases p3 with p3 | p3
    · cases findNode cfg.nodes e.1.orig <;> simp [p3]
    · cases hf : findNode cfg.nodes e.1.orig with
      | none => rfl
      | some n =>
        rcases p3 n hf with q | q
        · simp [q]
        · have := (eqi_iff o.pw n.packetPW).2 q
          simp [this]
  · rw [hsnd, hrcv, List.map_map]; exact hms

end CM

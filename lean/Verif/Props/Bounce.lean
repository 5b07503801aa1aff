import Verif.Lemmas.Depth
import Verif.Props.Echo
import Verif.Props.PktList
/-! # C22: bounces and other generated messages -/

set_option linter.unusedSimpArgs false

namespace CM

/-- Everything `x` hands back to the message handler satisfies `P`: its outcome depends on the handler
only through what the handler does with such messages. -/
def HandsBack (x : (MemMsg → M Unit) → M Unit) (P : MemMsg → Prop) : Prop :=
  ∀ self self', (∀ t, P t → self t = self' t) → x self = x self'

/-- C22. Bouncing an automatically generated message does nothing. -/
theorem bounce_autogen (env : Env) (self : MemMsg → M Unit) (m : MemMsg) (reason : Str) (h : Bool) (s : HSt)
    (ha : m.has MMFLAG_AUTOGEN = true) : bounce env self m reason h s = .ok () s := by
  unfold bounce
  rw [if_pos ha]; rfl

/-- C22. Every bounce is a netmail marked as automatically generated that asks for no receipt and no
audit. -/
theorem bounce_handsBack (env : Env) (m : MemMsg) (reason : Str) (h : Bool) :
    HandsBack (fun self => bounce env self m reason h) Gen :=
  fun _ _ hs => bounce_congr env m (fun _ => hs) reason h

/-- C22. Handling an automatically generated netmail that asks for no receipt and no audit generates
no message at all. -/
theorem generated_handsBack_none (env : Env) (af : (MemMsg → M Unit) → MemMsg → M Unit) (m : MemMsg) (g : Gen m) :
    HandsBack (fun self => handleNetmail env (af self) self m) fun _ => False :=
  fun self self' _ => handleNetmail_gen_eq env (af self) (af self') self self' m g

/-- C22. Handling an echomail generates only such messages. -/
theorem echomail_handsBack (env : Env) (m : MemMsg) : HandsBack (fun self => handleEchomail env self m) Gen :=
  fun _ _ hs => handleEchomail_congr env m hs

/-- C22. So does handling a netmail that asks for no receipt. -/
theorem netmail_handsBack (env : Env) (af : (MemMsg → M Unit) → MemMsg → M Unit)
    (haf : ∀ m, HandsBack (fun self => af self m) Gen) (m : MemMsg) (hr : m.attrHas FLAG_RREQ = false) :
    HandsBack (fun self => handleNetmail env (af self) self m) Gen :=
  fun self self' hs => handleNetmail_congr env m (fun m => haf m self self' hs) hs
    fun h => by rw [hr] at h; cases h

/-- C22. A netmail that asks for a receipt generates, besides such messages, only netmails that ask
for no receipt themselves. -/
theorem netmail_handsBack_receipt (env : Env) (af : (MemMsg → M Unit) → MemMsg → M Unit)
    (haf : ∀ m, HandsBack (fun self => af self m) Gen) (m : MemMsg) :
    HandsBack (fun self => handleNetmail env (af self) self m) Plain :=
  fun self self' hs => handleNetmail_congr env m (fun m => haf m self self' fun t g => hs t g.toPlain)
    (fun t g => hs t g.toPlain) fun _ => hs

section
variable (env : Env) {af : (MemMsg → M Unit) → MemMsg → M Unit} (haf : ∀ m, HandsBack (fun self => af self m) Gen)
include haf

/-- C22. A generated netmail is handled without generating messages. -/
theorem depth_gen (n : Nat) (m : MemMsg) (g : Gen m) : handleMessage env af (n + 1) m = handleMessage env af 1 m := by
  unfold handleMessage
  rw [if_pos g.area, if_pos g.area]
  exact handleNetmail_gen_eq env _ _ _ _ m g

theorem depth_plain (n : Nat) (m : MemMsg) (p : Plain m) :
    handleMessage env af (n + 2) m = handleMessage env af 2 m := by
  have hs : ∀ t, Gen t → handleMessage env af (n + 1) t = handleMessage env af 1 t :=
    fun t g => depth_gen env haf n t g
  unfold handleMessage
  rw [if_pos p.area, if_pos p.area]
  exact netmail_handsBack env af haf m p.rreq _ _ hs

/-- C22. Whatever message is handled, and whatever filters, bounces, receipts, audits and AreaFix
replies it sets off: generated messages are nested at most two deep. Deeper recursion never takes
place, so messages generated within one system cannot set each other off endlessly. -/
theorem generation_depth (n : Nat) (m : MemMsg) : handleMessage env af (n + 3) m = handleMessage env af 3 m := by
  have hg : ∀ t, Gen t → handleMessage env af (n + 2) t = handleMessage env af 2 t := fun t g => by
    rw [depth_gen env haf (n + 1) t g, depth_gen env haf 1 t g]
  have hp : ∀ t, Plain t → handleMessage env af (n + 2) t = handleMessage env af 2 t := fun t p =>
    depth_plain env haf n t p
  rw [handleMessage, handleMessage]
  split
  · exact netmail_handsBack_receipt env af haf m _ _ hp
  · exact echomail_handsBack env m _ _ hg

end

/-! ## Concrete cases -/

namespace Ex

/-- A system that bounces and kills every netmail to its own address. -/
def bouncer (own : UInt16) (other : UInt16) : Config where
  akas := [{ node := ⟨1, 2, own, 0⟩ }]
  nodes := [node other 0]
  routes := [⟨⟨.pattern, b!"*", b!"*", b!"*", b!"*"⟩, ⟨.pattern, b!"*", b!"*", b!"*", b!"0"⟩, ⟨1, 2, own, 0⟩⟩]
  filters := [⟨b!"TYPE=NETMAIL and TOADDR=1:2/" ++ dec own.toNat ++ b!".0", [.bounce true b!"no", .kill]⟩]
  sysop := b!"Sysop"
  nl := ⟨false, fun _ => 0, fun _ => 0⟩
  nlCheck := fun _ => true

/-- A netmail from 1:2/4 to 1:2/3. -/
def letter : MemMsg :=
  { orig := ⟨1, 2, 4, 0⟩, dest := ⟨1, 2, 3, 0⟩, pktOrig := ⟨1, 2, 4, 0⟩, pktDest := ⟨1, 2, 3, 0⟩
    frm := b!"A", to := b!"B", date := b!"01 Jan 00  00:00:00", subject := b!"Hi", flags := MMFLAG_TOSSED
    text := [b!"hello\r"] }

/-- The netmails sent. -/
def netmails (l : List Effect) : List (Node4D × Node4D × MemMsg) :=
  l.filterMap fun e => match e with
    | .netmail d a m => some (d, a, m)
    | _ => none

def got (x : Out Unit) : List (Node4D × Node4D × MemMsg) :=
  match x with
  | .ok _ t => netmails t.log
  | _ => []

/-- The packets written for some netmails. -/
def packets (c : Config) (ms : List (Node4D × Node4D × MemMsg)) : List (List UInt8) :=
  (closePackets (ms.foldl (fun s x => writeNetMail 0 ⟨2000, 0, 1, 0, 0, 0⟩ c.nodes x.2.2 x.1 x.2.1 s) {})).finished.map
    (·.data)

/-- The messages read from a packet. -/
def readBy (c : Config) (file : List UInt8) : List MemMsg :=
  match readPkt { akas := c.akas, nodes := c.nodes, defaultZone := 1 } (fun _ _ => true) (fun _ => false)
      (List.replicate 14 0) file with
  | .ok (some (_, ms)) => ms
  | _ => []

/-- One system tosses a message; what it sends is packed, and read by the other one. -/
def hop (c c' : Config) (m : MemMsg) : List MemMsg :=
  (packets c (got (handleMessage env noAf 3 m (st c)))).flatMap (readBy c')

/-- 1:2/3 tosses a message, and 1:2/4 what it gets from 1:2/3. -/
def round (m : MemMsg) : List MemMsg := (hop (bouncer 3 4) (bouncer 4 3) m).flatMap (hop (bouncer 4 3) (bouncer 3 4))

/-- What 1:2/3 receives after `n` rounds, starting with the letter. -/
def rounds : Nat → List MemMsg
  | 0 => [letter]
  | n + 1 => (rounds n).flatMap round

theorem rounds_one : ((rounds 1).length == 1 && (rounds 1).all fun m => m.subject == b!"Bounced message") = true := by
  decide +kernel

theorem rounds_two : ((rounds 2).length == 1 && (rounds 2).all fun m => m.subject == b!"Bounced message") = true := by
  decide +kernel

theorem rounds_three : (rounds 3 == rounds 2) = true := by decide +kernel

theorem rounds_same (n : Nat) : rounds (n + 2) = rounds 2 := by
  induction n with
  | zero => rfl
  | succ n ih =>
    show (rounds (n + 2)).flatMap round = _
    rw [ih]
    exact eq_of_beq rounds_three

/-- C22 (violated between systems). The mark of generated messages is not sent along, so bounces are
bounced: a letter between two systems that bounce netmail to their own address makes them exchange
bounces for ever. -/
theorem bounce_storm (n : Nat) : ∃ m, rounds (n + 1) = [m] ∧ m.subject = b!"Bounced message" := by
  have key : ∀ l : List MemMsg, (l.length == 1 && l.all fun m => m.subject == b!"Bounced message") = true →
      ∃ m, l = [m] ∧ m.subject = b!"Bounced message" := by
    intro l h
    rcases l with _ | ⟨a, _ | _⟩
    · cases h
    · exact ⟨a, rfl, by simpa using h⟩
    · simp at h
  cases n with
  | zero => exact key _ rounds_one
  | succ n => rw [rounds_same n]; exact key _ rounds_two

/-- A system that answers receipt requests and bounces the receipts it sends. -/
def receiptSys : Config :=
  { bouncer 3 4 with
    filters := [⟨b!"SUBJECT=Receipt", [.bounce true b!"no"]⟩]
    areas := [{ tag := b!"NETMAIL", aka := some 0, base := some 0, type := .netmail }]
    flags := CFG_ANSWERRECEIPT }

def asking : MemMsg := { letter with attr := FLAG_PVT ||| FLAG_RREQ }

/-- The bound is reached: the letter sets off a receipt, which sets off a bounce. -/
example : (∃ t, handleMessage env noAf 3 asking (st receiptSys) = .ok () t ∧
    (t.log.length == 3 && (netmails t.log).map (fun x => x.2.2.subject) == [b!"Receipt"]) = true) ∧
    (match handleMessage env noAf 2 asking (st receiptSys) with | .stuck => true | _ => false) = true :=
  ⟨ok_of (by decide +kernel), by decide +kernel⟩

/-- AreaFix that does nothing meets the condition on AreaFix. -/
example : ∀ m, HandsBack (fun self => noAf self m) Gen := fun _ _ _ _ => rfl

/-- So does one that answers with a generated message. -/
example : ∀ m, HandsBack (fun self => (fun _ => self { flags := MMFLAG_AUTOGEN } : MemMsg → M Unit) m) Gen :=
  fun _ _ _ h => h _ ⟨rfl, by decide, by decide, by decide⟩

end Ex

end CM

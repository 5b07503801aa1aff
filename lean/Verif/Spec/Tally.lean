import Verif.Model.Tally
import Verif.Spec.Echo

/-! # What should be counted for a message -/

namespace CM

/-- A message is written to a packet. -/
def Effect.sends : Effect → Bool
  | .echo .. => true
  | .netmail .. => true
  | _ => false

/-- A message is stored in area `i`. -/
def Effect.stores (i : Nat) : Effect → Bool
  | .importMsg j _ => i == j
  | _ => false

/-- `k` is the area for bad messages, the first one of that type, if there is one. -/
def BadArea (cfg : Config) : Option Nat → Prop
  | none => ∀ a ∈ cfg.areas, a.type ≠ .bad
  | some i => (∃ a, cfg.areas[i]? = some a ∧ a.type = .bad) ∧ ∀ j < i, ∀ b, cfg.areas[j]? = some b → b.type ≠ .bad

/-- Area `i` stores messages. -/
def Stores (cfg : Config) (i : Nat) : Prop := ∃ a, cfg.areas[i]? = some a ∧ a.base.isSome = true

/-- From `s` to `s'` one message is put into the area for bad messages, if there is one that stores messages, and nothing else happens. -/
def PutAside (s s' : HSt) (k : Option Nat) : Prop :=
  BadArea s.cfg k ∧ ∃ es, s' = { s with log := s.log ++ es } ∧
    ((es = [] ∧ ∀ i, k = some i → ¬ Stores s.cfg i) ∨ ∃ i x, k = some i ∧ Stores s.cfg i ∧ es = [.importMsg i x])

/-- What is counted for an echomail: it is refused, a duplicate, killed by a filter, or a new message of its area. Every copy that is written to a
packet is counted, and so is every copy that is stored. -/
inductive EchoCount (env : Env) (self : MemMsg → M Unit) (m : MemMsg) (s s' : HSt) : Tally → Prop
  | refused (s1 : HSt) (k : Option Nat) : s1.log = s.log → PutAside s1 s' k → EchoCount env self m s s' { bad := 1, texts := k.toList }
  | duplicate (s1 s2 : HSt) (i : Nat) (a : Area) (d : DupeDB) (k : Option Nat) : AreaOf s1.cfg m.area i a → s1.dupe = s.dupe → s1.cfg.dupeMode ≠ 0 →
      checkDupe s1.cfg.dupeSize s1.dupe m.msgid m.area = .ok (d, true) → s2.log = s.log → s2.dupe = d →
      ((s1.cfg.dupeMode = 1 ∧ PutAside s2 s' k) ∨ (s1.cfg.dupeMode ≠ 1 ∧ k = none ∧ s' = s2)) →
      EchoCount env self m s s' { dupes := 1, newDupes := [i], texts := k.toList }
  | killed (s1 : HSt) (m1 m2 : MemMsg) : s1.log = s.log → (∃ sb p, m1 = { m with type := PKTS_ECHOMAIL, seenBy := sb, path := p }) →
      filterMsg env self m1 s1 = .ok m2 s' → m2.has MMFLAG_KILL = true → EchoCount env self m s s' {}
  | kept (s1 s2 : HSt) (m1 m2 : MemMsg) (i : Nat) (a : Area) (es : List Effect) : s1.log = s.log → AreaOf s1.cfg m.area i a →
      (∃ sb p, m1 = { m with type := PKTS_ECHOMAIL, seenBy := sb, path := p }) →
      filterMsg env self m1 s1 = .ok m2 s2 → m2.has MMFLAG_KILL = false → s'.log = s2.log ++ es → (∀ e ∈ es, e.sends = true ∨ e.stores i = true) →
      es.countP (·.stores i) = (if m2.has MMFLAG_TWIT = false ∧ m2.has MMFLAG_EXPORTED = false ∧ a.base.isSome = true then 1 else 0) →
      EchoCount env self m s s' { texts := [i], written := es.countP (·.sends), imported := es.countP (·.stores i) }

/-- What is counted for a netmail that stays here (area `i`): nothing for a twit or a message without text, else a new message of the area, and that it was
imported if the area stores messages. A receipt may be sent then. -/
inductive StoredCount (env : Env) (self : MemMsg → M Unit) (i : Nat) (m : MemMsg) (s s' : HSt) : Tally → Prop
  | twit : m.has MMFLAG_TWIT = true → s' = s → StoredCount env self i m s s' {}
  | empty (m' : MemMsg) : s.cfg.has CFG_IMPORTEMPTYNETMAIL = false → hasText m.text = .ok false →
      (s' = s ∨ answerReceipt env self m' s = .ok () s') → StoredCount env self i m s s' {}
  | stored (m' : MemMsg) (es : List Effect) : (s.cfg.has CFG_IMPORTEMPTYNETMAIL = true ∨ hasText m.text = .ok true) →
      ((es = [] ∧ ¬ Stores s.cfg i) ∨ (Stores s.cfg i ∧ es = [.importMsg i m'])) →
      (s' = { s with log := s.log ++ es } ∨ answerReceipt env self m' { s with log := s.log ++ es } = .ok () s') →
      StoredCount env self i m s s' { texts := [i], imported := es.countP (·.stores i) }

/-- What is counted for the check for loops: a loop-mail is bad if it is to be put aside. -/
inductive LoopCount (m : MemMsg) (s s' : HSt) : Tally → Prop
  | none : s' = s → LoopCount m s s' {}
  | loop (k : Option Nat) : s.cfg.loopMode = 2 → m.has MMFLAG_EXPORTED = false → isLoopMail s.cfg m.text = .ok true → PutAside s s' k →
      LoopCount m s s' { bad := 1, texts := k.toList }

/-- What is counted for a netmail that is for others: it is bad if there is no route, nothing if it is sent back, and otherwise one routed and written message. -/
inductive RouteCount (env : Env) (self : MemMsg → M Unit) (m : MemMsg) (s s' : HSt) : Tally → Prop
  | lost (k : Option Nat) (pri : Pri) : routeNetmail s.cfg.nl s.cfg.routes s.cfg.changes m.dest pri = none → PutAside s s' k →
      RouteCount env self m s s' { bad := 1, texts := k.toList }
  | bounced (s1 : HSt) (m1 : MemMsg) (reason : Str) (h : Bool) (t : Tally) : LoopCount m s s1 t → bounce env self m1 reason h s1 = .ok () s' →
      RouteCount env self m s s' t
  | sent (s1 s2 s3 : HSt) (m2 : MemMsg) (dest aka : Node4D) (es : List Effect) (t : Tally) : LoopCount m s s1 t → s2.log = s1.log ++ es → (∀ e ∈ es, e.sends = false ∧ ∀ i, e.stores i = false) →
      s3 = { s2 with log := s2.log ++ [.netmail dest aka m2] } → (s' = s3 ∨ answerAudit env self m2 s3 = .ok () s') →
      RouteCount env self m s s' (t.add { written := 1, routed := 1 })

/-- What is counted for a netmail, after the filters and, if it is for AreaFix, after AreaFix. -/
inductive NetCount (env : Env) (af self : MemMsg → M Unit) (m : MemMsg) (s s' : HSt) : Tally → Prop
  | killed (s1 : HSt) (m1 m2 : MemMsg) : prepNetmail m s = .ok m1 s1 → filterMsg env self m1 s1 = .ok m2 s' → m2.has MMFLAG_KILL = true →
      NetCount env af self m s s' {}
  | command (s1 s2 : HSt) (m1 m2 : MemMsg) : prepNetmail m s = .ok m1 s1 → filterMsg env self m1 s1 = .ok m2 s2 → m2.has MMFLAG_KILL = false →
      s2.cfg.has CFG_IMPORTAREAFIX = false → af m2 s2 = .ok () s' → NetCount env af self m s s' {}
  | here (s1 s2 s3 : HSt) (m1 m2 : MemMsg) (i : Nat) (t : Tally) : prepNetmail m s = .ok m1 s1 → filterMsg env self m1 s1 = .ok m2 s2 → m2.has MMFLAG_KILL = false →
      (s3 = s2 ∨ af m2 s2 = .ok () s3) → netmailArea s3.cfg m2.dest = some i → StoredCount env self i m2 s3 s' t → NetCount env af self m s s' t
  | away (s1 s2 s3 : HSt) (m1 m2 : MemMsg) (t : Tally) : prepNetmail m s = .ok m1 s1 → filterMsg env self m1 s1 = .ok m2 s2 → m2.has MMFLAG_KILL = false →
      (s3 = s2 ∨ af m2 s2 = .ok () s3) → netmailArea s3.cfg m2.dest = none → RouteCount env self m2 s3 s' t → NetCount env af self m s s' t

/-- What is counted for the messages of a run: each is counted as it should be, and what is done for it is what is done without counting. -/
inductive RunCount (env : Env) (af : (MemMsg → M Unit) → MemMsg → M Unit) (f : Nat) : List MemMsg → HSt → HSt → List Tally → Prop
  | nil (s : HSt) : RunCount env af f [] s s []
  | echo (m : MemMsg) (r : List MemMsg) (s s1 s' : HSt) (t : Tally) (ts : List Tally) : m.area ≠ [] → handleMessage env af (f + 1) m s = .ok () s1 →
      EchoCount env (handleMessage env af f) m s s1 t → RunCount env af f r s1 s' ts → RunCount env af f (m :: r) s s' (t :: ts)
  | net (m : MemMsg) (r : List MemMsg) (s s1 s' : HSt) (t : Tally) (ts : List Tally) : m.area = [] → handleMessage env af (f + 1) m s = .ok () s1 →
      NetCount env (af (handleMessage env af f)) (handleMessage env af f) m s s1 t → RunCount env af f r s1 s' ts → RunCount env af f (m :: r) s s' (t :: ts)

end CM

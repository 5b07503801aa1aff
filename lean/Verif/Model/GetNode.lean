import Verif.Model.Nodelist
/-! # Model of CrashGetNode (`tools/crashgetnode.c`) -/

namespace CM

/-- Bytes `strip` removes (32): `str[c] < 33` with a signed `char`. -/
def gnBlank (c : UInt8) : Bool := c < 33 || 128 ≤ c

/-- `strip` (28-33). If nothing is left, `str[-1]` is read (`str[c]` is looked at before `c>=0`). -/
def gnStrip (s : Str) : Except UB Str :=
  match s.reverse.dropWhile gnBlank with
  | [] => .error .oobRead
  | c :: r => .ok (c :: r).reverse

/-- `strtok(…,",")` on what is left of the string: the token and what is left after it. Separators in
front of a token are skipped. -/
def gnTok (s : Str) : Option Str × Str :=
  match s.dropWhile (· == 44) with
  | [] => (none, [])
  | c :: r => (some ((c :: r).takeWhile (· != 44)), ((c :: r).dropWhile (· != 44)).drop 1)

/-- `strtok(NULL,"")` (147): everything that is left. -/
def gnRest (s : Str) : Option Str := if s = [] then none else some s

/-- One of 122-145: `if((buf=strtok(NULL,","))) printf(…)`. -/
def gnShow (label : Str) (s : Str) : Str × Str :=
  match gnTok s with
  | (none, r) => ([], r)
  | (some t, r) => (label ++ b!": " ++ t ++ b!"\n", r)

/-- 147-150. -/
def gnFlags (s : Str) : Str :=
  match gnRest s with
  | none => []
  | some t => b!"Flags: " ++ t ++ b!"\n"

/-- What is printed about the line (108-150). -/
def gnLine (line : Str) : Except UB Str := do
  let s ← gnStrip line
  let (kind, s) := if s.head? = some 44 then (b!"Node", (gnTok s).2)
    else ((gnTok s).1.getD [], (gnTok (gnTok s).2).2)
  let (a, s) := gnShow b!"Name" s
  let (b, s) := gnShow b!"Location" s
  let (c, s) := gnShow b!"Sysop" s
  let (d, s) := gnShow b!"Phone" s
  let (e, s) := gnShow b!"Baud" s
  let f := gnFlags s
  .ok (b!"Node is listed as a " ++ kind ++ b!"\n" ++ a ++ b ++ c ++ d ++ e ++ f)

/-- How CrashGetNode ends: the address cannot be read, there is no index, the node is not found (or the
nodelist cannot be opened, `cmnllib.c` 133-137), or something is shown. -/
inductive GnEnd where
  | invalid
  | noIndex
  | failed
  | shown (out : Str)
  deriving DecidableEq

/-- `main` (35-155) after the arguments were read and the directory is known. `index` is the contents of
the index file; `lists` gives the contents of the nodelists in the directory. Nothing at the position in
the nodelist: `line` stays uninitialised (`cmnllib.c` 139-140). -/
def getNode (lists : Str → Option (List UInt8)) (index : Option (List UInt8)) (arg : Str) : Except UB GnEnd :=
  match parse4D arg with
  | none => .ok .invalid
  | some n =>
    match index with
    | none => .ok .noIndex
    | some ix =>
      if !openNL ix then .ok .noIndex
      else match findNL ix n with
        | .found name i =>
          match lists (cstr name) with
          | none => .ok .failed
          | some f =>
            match osFGets 200 (f.drop i.offset.toNat) with
            | none => .error .uninit
            | some (line, _) => do
              let t ← gnLine line
              .ok (.shown (b!"Node " ++ dec n.zone.toNat ++ b!":" ++ dec n.net.toNat ++ b!"/" ++ dec n.node.toNat ++ b!"." ++
                dec n.point.toNat ++ b!"\nRegion " ++ dec i.region.toNat ++ b!", Hub " ++ dec i.hub.toNat ++ b!"\n" ++ t))
        | _ => .ok .failed

end CM

import Verif.Model.Pack
import Verif.Model.Areafix
/-! # Tossing a directory (`crashmail/toss.c`) and the check of the configuration (`config.c`) -/

namespace CM

/-- `DateCompareFE` (`misc.c` 131-143). -/
def dateCompareFE (a b : FileEntry) : Int :=
  if b.date < a.date then 1 else if a.date < b.date then -1 else cmpi a.name b.name

/-- What tossing uses: reading a packet and tossing a bundle, with the new state and the result, and
whether Ctrl-C has been pressed. -/
structure Tosser (σ : Type) where
  readPkt : σ → Str → σ × Bool
  tossBundle : σ → Str → σ × Bool
  ctrlc : σ → Bool

/-- The two loops of `TossDir` (`toss.c` 233-246, 248-261): the state, `false` if a file failed, and the
names given to `SafeDelete`. -/
def tossLoop {σ : Type} (f : σ → Str → σ × Bool) (ctrlc : σ → Bool) (dir : Str) : σ → List FileEntry → σ × Bool × List Str
  | s, [] => (s, true, [])
  | s, fe :: r =>
    if ctrlc s then (s, true, [])
    else
      let p := makeFullPath dir fe.name 200
      if (f s p).2 then
        let t := tossLoop f ctrlc dir (f s p).1 r
        (t.1, t.2.1, p :: t.2.2)
      else ((f s p).1, false, [])

/-- `TossDir` (`toss.c` 220-275) with the packets and bundles found in the directory: the state, the
argument of `AfterScanToss`, and the files to delete. `sort` is `SortFEList` (`misc.c` 145-177). -/
def tossDir {σ : Type} (t : Tosser σ) (sort : List FileEntry → List FileEntry) (dir : Str) (pkts arcs : List FileEntry) (s : σ) :
    σ × Bool × List Str :=
  let r1 := tossLoop t.readPkt t.ctrlc dir s (sort pkts)
  if !r1.2.1 then (r1.1, false, r1.2.2)
  else
    let r2 := tossLoop t.tossBundle t.ctrlc dir r1.1 (sort arcs)
    (r2.1, r2.2.1 && !t.ctrlc r2.1, r1.2.2 ++ r2.2.2)

/-- `TossFile` (`toss.c` 299-325) for a file that exists and has this name: the state, the argument of
`AfterScanToss`, and the files to delete. Ctrl-C is not looked at. -/
def tossFile {σ : Type} (t : Tosser σ) (file name : Str) (s : σ) : σ × Bool × List Str :=
  let r := if isPkt name then t.readPkt s file else t.tossBundle s file
  (r.1, r.2, if r.2 then [file] else [])

/-- The deletion at the end of a run: `SafeDelete` (`safedel.c` 3-14) for every file tossed, and, if the run
was successful, `ProcessSafeDelete` (`crashmail.c` 156-158). -/
def clearInbound (success : Bool) (dels : List Str) : Prog Unit :=
  if success then processSafeDelete (dels.map safeDeleteName) else return ()

/-- The loop of `TossBundle` over the packets in the temporary directory (`toss.c` 136-158): the state, the
result, and the packets deleted (`osDelete`). `dels` is the list of `SafeDelete`, which the loop does not change. -/
def bundleLoop {σ : Type} (f : σ → Str → σ × Bool) (ctrlc : σ → Bool) (dels : List Str) (dir : Str) : σ → List FileEntry → σ × Bool × List Str
  | s, [] => (s, !ctrlc s, [])
  | s, fe :: r =>
    if ctrlc s then (s, false, [])
    else
      let p := makeFullPath dir fe.name 200
      if dels.contains p then bundleLoop f ctrlc dels dir s r
      else if (f s p).2 then
        let t := bundleLoop f ctrlc dels dir (f s p).1 r
        (t.1, t.2.1, p :: t.2.2)
      else ((f s p).1, false, [])

/-! ## `CheckConfig` -/

/-- `Check4DPatNodelist` (`node4dpat.c` 307-313). -/
def check4DPatNodelist (p : Pat4) : Bool := !(p.type == .hub || p.type == .region)

/-- The loop for areas with the same path (`config.c` 1901-1912); `true`: none. -/
def checkPaths : List Area → Bool
  | [] => true
  | a :: r =>
    (a.type == .default || a.base.isNone || !(r.any fun b => b.base.isSome && eqi a.path b.path)) && checkPaths r

/-- The check of a command of a filter (`config.c` 1919-1948). -/
def checkCommand (cfg : Config) : Command → Bool
  | .copy tag =>
    match cfg.areas.find? fun a => eqi a.tag tag with
    | none => false
    | some a => a.type == .local
  | .remap _ dest => cfg.nlConfigured || check4DPatNodelist dest
  | _ => true

/-- The loop for filters (`config.c` 1914-1949). -/
def checkFilters (cfg : Config) : List Filter → Except UB Bool
  | [] => .ok true
  | f :: r => do
    if ← checkFilter cfg f.text then
      if f.commands.all (checkCommand cfg) then checkFilters cfg r else return false
    else return false

/-- `CheckConfig` (`config.c` 1833-1952) without the texts of errors and the default directories. -/
def checkConfig (cfg : Config) : Except UB Bool :=
  if cfg.akas = [] then .ok false
  else if !cfg.nlConfigured && !(cfg.fileAttachList.all check4DPatNodelist && cfg.bounceList.all check4DPatNodelist &&
      cfg.routes.all (fun r => check4DPatNodelist r.pattern && check4DPatNodelist r.destPat) &&
      cfg.changes.all fun c => check4DPatNodelist c.pattern) then .ok false
  else if !checkPaths cfg.areas then .ok false
  else checkFilters cfg cfg.filters

end CM

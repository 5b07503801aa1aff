import Verif.Model.ReadConfig
/-!
# Lists of areas for other programs (`tools/crashexport.c`)

CrashExport reads the configuration file with its own loop, not with `ReadConfig`.

Not modelled: reading the command line (`parseargs` is in `Model/Search`), opening the files, and write
errors, which the program does not look at.
-/

namespace CM

/-- The formats (`crashexport.c` 48-54, 196-215). -/
inductive XFormat | areasBbs | forward | forwardNoDesc | golded | timed
  deriving DecidableEq, Repr

/-- The name of a format (`crashexport.c` 196-221); `none`: "Unknown format". -/
def cxFormat (w : Str) : Option XFormat :=
  if eqi w b!"areasbbs" then some .areasBbs
  else if eqi w b!"forward" then some .forward
  else if eqi w b!"forwardnodesc" then some .forwardNoDesc
  else if eqi w b!"golded" then some .golded
  else if eqi w b!"timed" then some .timed
  else none

/-- What the C standard leaves undefined: `strcpy` between overlapping strings, and a write behind the end
of an array. -/
inductive CxErr | overlap | oobWrite
  deriving DecidableEq, Repr

/-- The global variables (`crashexport.c` 32-34) and what has been written. The variables are zero at the
start; `type` is only looked at when there is a `tag`, and is set together with it. -/
structure CxSt where
  tag : Str := []
  desc : Str := []
  base : Str := []
  path : Str := []
  exports : Str := []
  aka : Str := []
  group : UInt8 := 0
  type : AreaType := .echomail
  unconfirmed : Bool := false
  out : Str := []
  deriving DecidableEq, Repr

/-- `CheckFlags` (`crashexport.c` 56-67). -/
def cxCheckFlags (g : UInt8) (node : Str) : Bool := node.any fun c => upper g == upper c

/-- Groups were asked for, and this is not one of them (`crashexport.c` 91-92). -/
def cxOther (grp : Option Str) (g : UInt8) : Bool :=
  match grp with
  | some s => !cxCheckFlags g s
  | none => false

/-- The description without quotes (`crashexport.c` 94-99). -/
def cxEscape (d : Str) : Str := d.map fun c => if c = 34 then 39 else c

/-- `writearea` (`crashexport.c` 69-165): what is written for the area. -/
def cxWrite (fmt : XFormat) (grp : Option Str) (x : CxSt) : Str :=
  if x.unconfirmed then []
  else if x.type = .default then []
  else if cxOther grp x.group then []
  else
    match fmt with
    | .areasBbs =>
      if x.type ≠ .netmail ∧ x.type ≠ .local then
        if eqi x.base b!"MSG" then x.path ++ b!" " ++ x.tag ++ b!" " ++ x.exports ++ b!"\n"
        else if eqi x.base b!"JAM" then b!"!" ++ x.path ++ b!" " ++ x.tag ++ b!" " ++ x.exports ++ b!"\n"
        else if eqi x.base [] then b!"#" ++ x.tag ++ b!" " ++ x.tag ++ b!" " ++ x.exports ++ b!"\n"
        else x.base ++ b!":" ++ x.path ++ b!" " ++ x.tag ++ b!" " ++ x.exports ++ b!"\n"
      else []
    | .forward =>
      if x.type = .echomail then
        if x.desc ≠ [] then x.tag ++ b!" " ++ x.desc ++ b!"\n" else x.tag ++ b!"\n"
      else []
    | .forwardNoDesc => if x.type = .echomail then x.tag ++ b!"\n" else []
    | .golded =>
      if x.path ≠ [] then
        match (if eqi x.base b!"MSG" then some b!"FTS1" else if eqi x.base b!"JAM" then some b!"JAM" else none) with
        | none => []
        | some mb =>
          b!"AREADEF " ++ x.tag ++ b!" \"" ++ cxEscape x.desc ++ b!"\" " ++ (if x.group ≠ 0 then [x.group] else b!"0") ++ b!" " ++
            (if x.type = .netmail then b!"NET" else if x.type = .local then b!"LOCAL" else b!"ECHO") ++ b!" " ++ mb ++ b!" " ++
            x.path ++ b!" " ++ x.aka ++ b!" " ++ (if x.type = .netmail then b!"(Loc Pvt)" else b!"(Loc)") ++ b!"\n"
      else []
    | .timed =>
      if x.path ≠ [] then
        match (if eqi x.base b!"MSG" then some [] else if eqi x.base b!"JAM" then some b!" -J" else none) with
        | none => []
        | some fl =>
          (if x.type = .netmail then b!"NetArea" else if x.type = .local then b!"LocalArea" else b!"EchoArea") ++ b!" \"" ++
            cxEscape x.desc ++ b!"\" " ++ x.tag ++ b!" " ++ x.path ++ b!" -P" ++ x.aka ++ fl ++ b!"\n"
      else []

/-- The area so far is written when it has a name (`crashexport.c` 272-273, 349-350). -/
def cxFlush (fmt : XFormat) (grp : Option Str) (x : CxSt) : Str := x.out ++ (if x.tag ≠ [] then cxWrite fmt grp x else [])

/-- AREA, NETMAIL and LOCALAREA (`crashexport.c` 270-300). -/
def cxArea (fmt : XFormat) (grp : Option Str) (x : CxSt) (w rest : Str) : CxSt :=
  let t := jbstrcpy 100 rest
  let k := jbstrcpy 50 t.2.1
  let b := jbstrcpy 10 k.2.1
  let p := jbstrcpy 100 b.2.1
  { tag := t.1
    aka := k.1
    base := b.1
    path := p.1
    type :=
      if eqi w b!"NETMAIL" then .netmail
      else if eqi w b!"LOCALAREA" then .local
      else if eqi t.1 b!"BAD" then .bad
      else if eqi t.1 b!"DEFAULT" || eqin t.1 b!"DEFAULT_" 8 then .default
      else .echomail
    out := cxFlush fmt grp x }

/-- One address of an EXPORT line (`crashexport.c` 311-329): the list so far and the template. A mark before
the address is removed with `strcpy(buf,&buf[1])`; the two strings overlap unless the mark is the whole
word. The list is an array of 1000 bytes. -/
def cxAddr (acc : Str × Node4D) (w : Str) : Except CxErr (Str × Node4D) :=
  let marked := w.head? = some 33 ∨ w.head? = some 37 ∨ w.head? = some 64
  if marked ∧ w.tail ≠ [] then .error .overlap
  else
    match parse4DTemplate (if marked then [] else w) acc.2 with
    | none => .ok acc
    | some n =>
      if acc.1.length < 980 then
        let e := (if acc.1 ≠ [] then acc.1 ++ b!" " else acc.1) ++ print4D n
        if e.length < 1000 then .ok (e, { n with point := 0 }) else .error .oobWrite
      else .ok (acc.1, { n with point := 0 })

/-- One line of the file (`crashexport.c` 265-347). The words are all different, so at most one of the `if`
statements applies. -/
def cxLine (fmt : XFormat) (grp : Option Str) (x : CxSt) (line : Str) : Except CxErr CxSt :=
  let t := jbstrcpy 30 line
  let w := t.1
  let rest := t.2.1
  if isAreaWord w then .ok (cxArea fmt grp x w rest)
  else if eqi w b!"EXPORT" then do
    let r ← (rdWords 100 rest).foldlM cxAddr (x.exports, ⟨0, 0, 0, 0⟩)
    return { x with exports := r.1 }
  else if eqi w b!"UNCONFIRMED" then .ok { x with unconfirmed := true }
  else if eqi w b!"DESCRIPTION" then .ok { x with desc := (jbstrcpy 100 rest).1 }
  else if eqi w b!"GROUP" then
    let g := jbstrcpy 100 rest
    .ok (if g.2.2 then { x with group := g.1.headD 0 } else x)
  else .ok x

/-- The name of the sysop (`crashexport.c` 247-258). -/
def cxSysop (lines : List Str) : Str :=
  lines.foldl (fun n l => if eqi (jbstrcpy 30 l).1 b!"SYSOP" then (jbstrcpy 100 (jbstrcpy 30 l).2.1).1 else n) b!"Sysop"

/-- What is written before the areas (`crashexport.c` 242-263). `now` is the result of `ctime`. -/
def cxHead (fmt : XFormat) (lines : List Str) (now : Str) : Str :=
  b!"; Generated by CrashExport 1.5.1\n; " ++ now ++ b!"\n" ++
    (if fmt = .areasBbs then b!"Default origin ! " ++ cxSysop lines ++ b!"\n" else [])

/-- `main` (`crashexport.c` 167-357) from the contents of the configuration file to the contents of the
file written. -/
def crashExport (fmt : XFormat) (grp : Option Str) (now : Str) (file : List UInt8) : Except CxErr Str := do
  let lines := fileLines 4000 file.length file
  let x ← lines.foldlM (cxLine fmt grp) { out := cxHead fmt lines now }
  return cxFlush fmt grp x

end CM

import Verif.Model.ToolArgs

/-! # The help of the tools -/

namespace CM

/-- The line for one argument in `printargs` (`shared/parseargs.c` 69-95), with the buffer of 50 bytes for the name. -/
def helpLine (a : Arg) : Except UB Str :=
  match a.name with
  | none => .ok []
  | some n => do
    let buf1 ← if a.auto then (if n.length + 3 ≤ 50 then .ok (b!"(" ++ n ++ b!")") else .error .oobWrite)
      else (if n.length + 1 ≤ 50 then .ok n else .error .oobWrite)
    let buf2 := if a.mandatory then b!" [Mandatory]" else []
    match a.type with
    | .string => .ok (buf1 ++ b!" <string>" ++ buf2 ++ [10])
    | .bool => .ok (n ++ [10])

/-- `printargs` (`shared/parseargs.c` 69-100): what is printed. -/
def printArgs (table : List Arg) : Except UB Str := do
  let ls ← table.mapM helpLine
  return b!"\nAvailable arguments:\n\n" ++ ls.flatten ++ b!"\n" ++
    b!"[Mandatory] means that the argument has to be specified. Parentheses around\n" ++
    b!"the keyword mean that the keyword itself does not have to be specified.\n\n"

end CM

import Verif.Model.Areafix
/-! # The command `RESCAN` (`crashmail/crashmail.c`) -/

namespace CM

/-- `Rescan` (`crashmail.c` 336-398): the value it returns; `M.fail` is the return of `FALSE` after the rescan has begun. `BeforeScanToss` and `AfterScanToss`
are left out, as in `Model/Scan.lean`. -/
def rescanCmd (env : Env) (tag addr : Str) (max : UInt32) : M Bool := do
  let s ← M.get
  match parse4D addr with
  | none => pure false
  | some d =>
    match s.cfg.nodes.findIdx? fun n => compare4D n.node d == 0 with
    | none => pure false
    | some k =>
      match s.cfg.areas.findIdx? fun a => eqi tag a.tag with
      | none => pure false
      | some i =>
        match s.cfg.areas[i]?, s.cfg.nodes[k]? with
        | some a, some n =>
          if a.type ≠ .echomail then pure false
          else match a.base with
            | none => pure false
            | some b =>
              if !env.canRescan b then pure false
              else do
                rescanAll env ⟨k, n, 0⟩ (env.rescan s.log i max).1
                if (env.rescan s.log i max).2 then pure true else M.fail
        | _, _ => M.ub .nullDeref

end CM

import Verif.Model.Search

/-! # What `parseargs` prints about a wrong command line (`shared/parseargs.c` 9-67) -/

namespace CM

/-- The first two messages, with what is put into them (`shared/parseargs.c` 33, 51). -/
inductive ArgMsg where
  | noValue (n : Str)
  | unknown (w : Str)
  deriving DecidableEq, Repr

/-- The text of a message (`shared/parseargs.c` 33, 51). -/
def ArgMsg.text : ArgMsg → Str
  | .noValue n => b!"No argument for " ++ n ++ b!"\n"
  | .unknown w => b!"Unknown keyword " ++ w ++ b!"\n"

/-- Main loop of `parseargs` (`shared/parseargs.c` 13-57) as in `parseLoop`, with the message. The name of an argument that has been
found by its name is not `NULL`. If the first loop finds an entry, so does `setFirst`. -/
def parseLoopMsg (args : List Arg) : List Str → Except ArgMsg (List Arg)
  | [] => .ok args
  | w :: ws =>
    match args.find? (·.isKeyword w) with
    | some a =>
      match a.type with
      | .string =>
        match ws with
        | [] => .error (.noValue (a.name.getD []))
        | v :: ws =>
          match setFirst (·.isKeyword w) (.str v) args with
          | none => .error (.unknown w)
          | some args => parseLoopMsg args ws
      | .bool =>
        match setFirst (·.isKeyword w) .flag args with
        | none => .error (.unknown w)
        | some args => parseLoopMsg args ws
    | none =>
      match setFirst Arg.isFree (.str w) args with
      | none => .error (.unknown w)
      | some args => parseLoopMsg args ws

/-- `parseargs` (`shared/parseargs.c` 9-67) on `argv[1..]`: `.error` of a text is `return(FALSE)` after it has been printed. The name in
the last message (62) may be `NULL`, which `printf` must not be given. -/
def parseArgsMsg (args : List Arg) (argv : List Str) : Except UB (Except Str (List Arg)) :=
  match parseLoopMsg args argv with
  | .error m => .ok (.error m.text)
  | .ok args =>
    match args.find? (fun a => a.mandatory && a.data == .none) with
    | none => .ok (.ok args)
    | some a =>
      match a.name with
      | none => .error .nullDeref
      | some n => .ok (.error (b!"Mandatory argument " ++ n ++ b!" not specified\n"))

end CM

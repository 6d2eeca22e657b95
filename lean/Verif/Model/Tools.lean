import Verif.Model.Scan

/-!
# Model of a whole run of `uechoctl` (net/echonet/cmd/get.go, set.go, scan.go)

What the controller does is a parameter: whether it starts, searches, sends and stops, which nodes it has found after
the search, and what a post returns. Parsing of the command line by cobra and viper is left out: the number of
arguments is right, and `format` is the text viper returns for `--format`. Verbose output is left out. The layout of
`Table.Output` is left out: the table itself is what is printed.
-/

namespace Verif.Model

/-- What `Output`, `OutputJSON` or `OutputCSV` print (cmd/table.go:47-99). -/
inductive Printed where
  | table (t : Table)
  | json (objs : List (List (Str × Str)))
  | csv (s : Str)
deriving DecidableEq, Repr

/-- What a run does that can be seen from outside. -/
inductive ToolEvent where
  | start
  | search
  | post (n : RemoteNode) (m : Message)
  | send (n : RemoteNode) (m : Message)
  | printed (p : Printed)
  | stop

/-- The answers of the controller. -/
structure ToolOs where
  start : Option Err
  search : Option Err
  stop : Option Err
  found : List RemoteNode
  post : RemoteNode → Message → Res Message
  send : RemoteNode → Message → Option Err
  answers : PostAnswers

namespace ToolOs

/-- `controller.LookupNode` (controller.go:90-97). -/
def lookup (os : ToolOs) (address : Str) : Option RemoteNode :=
  os.found.find? (fun n => n.address.toList == address)

end ToolOs

/-- The switch over the format (cmd/get.go:96-103, cmd/scan.go:71-80). -/
def Table.print (t : Table) : Format → Res Printed
  | .json => do .ok (.json (← t.jsonObjects))
  | .csv => .ok (.csv t.csv)
  | .table => .ok (.table t)

/-- Hiding repetitions in the table on the screen (cmd/scan.go:76-79). -/
def Table.forScan (t : Table) : Format → Res Table
  | .table => t.hideDuplicateColumns [0, 1, 2, 3, 4]
  | _ => .ok t

/-- The end of a run (cmd/get.go:107-112, cmd/set.go:97-102, cmd/scan.go:84-89), after the events `evs`. -/
def ToolOs.finish (os : ToolOs) (evs : List ToolEvent) : List ToolEvent × Res Unit :=
  match os.stop with
  | some e => (evs ++ [.stop], .err e)
  | none => (evs ++ [.stop], .ok ())

/-- Starting and searching (cmd/get.go:69-80, cmd/set.go:70-81, cmd/scan.go:61-69 with cmd/controller.go:32-37). -/
def ToolOs.begin (os : ToolOs) (k : List ToolEvent → List ToolEvent × Res Unit) : List ToolEvent × Res Unit :=
  match os.start with
  | some e => ([.start], .err e)
  | none =>
    match os.search with
    | some e => ([.start, .search], .err e)
    | none => k [.start, .search]

/-- `uechoctl get` (cmd/get.go:26-114). -/
def getTool (l : Lowering) (space : Char → Bool) (os : ToolOs) (format address obj prop : Str) :
    List ToolEvent × Res Unit :=
  match newFormatFromString l space format with
  | .err e => ([], .err e)
  | .panic => ([], .panic)
  | .ok f =>
    match getRequest l obj prop with
    | .err e => ([], .err e)
    | .panic => ([], .panic)
    | .ok req =>
      os.begin fun evs =>
        match os.lookup address with
        | none => (evs, .err .other)
        | some n =>
          let evs := evs ++ [.post n req]
          match os.post n req with
          | .err e => (evs, .err e)
          | .panic => (evs, .panic)
          | .ok res =>
            match messageTable [res] with
            | .err e => (evs, .err e)
            | .panic => (evs, .panic)
            | .ok t =>
              match t.print f with
              | .err e => (evs, .err e)
              | .panic => (evs, .panic)
              | .ok p => os.finish (evs ++ [.printed p])

/-- `uechoctl set` (cmd/set.go:26-104). -/
def setTool (l : Lowering) (os : ToolOs) (address obj prop value : Str) : List ToolEvent × Res Unit :=
  match setRequest l obj prop value with
  | .err e => ([], .err e)
  | .panic => ([], .panic)
  | .ok req =>
    os.begin fun evs =>
      match os.lookup address with
      | none => (evs, .err .other)
      | some n =>
        let evs := evs ++ [.send n req]
        match os.send n req with
        | some e => (evs, .err e)
        | none => os.finish evs

/-- `uechoctl scan` (cmd/scan.go:27-92); without an argument the address is empty. The posts of
`DiscoveredNodeTable` are not listed as events. -/
def scanTool (l : Lowering) (space : Char → Bool) (mans : List Manufacture) (os : ToolOs) (verbose : Bool)
    (format : Str) (address : String) : List ToolEvent × Res Unit :=
  match newFormatFromString l space format with
  | .err e => ([], .err e)
  | .panic => ([], .panic)
  | .ok f =>
    let query : Query := ⟨verbose || decide (0 < address.toList.length), address⟩
    os.begin fun evs =>
      let t := discoveredNodeTable mans os.answers query os.found
      match t.forScan f with
      | .err e => (evs, .err e)
      | .panic => (evs, .panic)
      | .ok t =>
        match t.print f with
        | .err e => (evs, .err e)
        | .panic => (evs, .panic)
        | .ok p => os.finish (evs ++ [.printed p])

end Verif.Model

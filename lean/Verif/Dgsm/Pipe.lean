import Verif.Dgsm.Model
/-!
# The examples of how to use the lookup program: `contrib/dgsm/osmo-mslookup-pipe.py`, `contrib/dgsm/osmo-mslookup-socket.py`

Both give the last answer with an address; other programs are written after them.

Simplified: POSIXLY_CORRECT is not set; the program can be started or connected to; printing does not
fail; a byte above 127 in a JSON text is an exception.
-/
namespace Verif.Dgsm
open Verif Verif.Mslookup Verif.Tool Verif.Tool.Spec Verif.Sys

/-- `proc.stdout.readline` until the end (osmo-mslookup-pipe.py 10-12): lines with their line feed, and what
follows the last line feed. -/
def readLines : Bytes → Bytes → List Bytes
  | acc, [] => if acc = [] then [] else [acc]
  | acc, c :: s => if c = 10 then (acc ++ [10]) :: readLines [] s else readLines (acc ++ [c]) s

/-- `{'result': 'not-found'}` (osmo-mslookup-pipe.py 7). -/
def notFound : Json := .obj [(b "result", .str (b "not-found"))]

/-- `response.get('result') == 'result'` (osmo-mslookup-pipe.py 14). -/
def isResult (j : Json) : Bool :=
  match getItem (b "result") j with
  | some (.str s) => s == b "result"
  | _ => false

/-- The loop (osmo-mslookup-pipe.py 10-16); `none` for an exception, which is also raised for an answer that is
no object. -/
def pipeLoop : Json → List Bytes → Option Json
  | result, [] => some result
  | result, l :: ls => match (ascii l).bind loads with
    | some (.obj m) => pipeLoop (if isResult (.obj m) then .obj m else result) ls
    | _ => none

/-- query_mslookup (osmo-mslookup-pipe.py 6-17): `none` while the program runs.  Simplified: a query that the program
takes for an option that ends it is an exception. -/
def queryPipe (env : Env) (query : Bytes) (turns : List (List Tool.Ev)) : Option (Option Json) :=
  match program env [b "-f", b "json", query] turns with
  | none => some none
  | some t => if t.exited then some (pipeLoop notFound (readLines [] (printed t.log))) else none

/-- `dict(zip(column_names, csv.split('\t')))` (osmo-mslookup-socket.py 16, 22-23), as `response.get(name)`: of several columns with
the same name, the last one counts. -/
def dictGet (names line name : Bytes) : Option Bytes :=
  (((columns names).zip (columns line)).reverse.find? (fun x => x.1 == name)).map (·.2)

/-- The loop (osmo-mslookup-socket.py 18-25) over what comes from the socket: `none` while it waits, else the
names of the columns and the last answer with an address. -/
def socketLoop (names : Bytes) : Option Bytes → List Tool.Spec.Out → Option (Option (Bytes × Bytes))
  | _, [] => none
  | result, .close :: _ => some (result.map fun l => (names, l))
  | result, .line l :: s => socketLoop names (if dictGet names l (b "result") = some (b "result") then some l else result) s

/-- query_mslookup_socket (osmo-mslookup-socket.py 8-26), by what it gets from the socket.  `some none` stands for
`{'result': 'not-found'}`.  Simplified: there are no bytes above 127. -/
def querySocket : List Tool.Spec.Out → Option (Option (Bytes × Bytes))
  | [] => none
  | .close :: _ => some none
  | .line names :: s => socketLoop names none s

end Verif.Dgsm

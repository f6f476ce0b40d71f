import Verif.Model.Cli
import Verif.Model.Demo
import Verif.Model.DemoText

/-! Model of the whole program `/repo/src/oifitslib/oitable-demo.c`: the names entered at its prompts, the file it
makes from a text, and the tables it lists. Not modelled: the prompts and messages it prints, apart from the
lines which list tables, and names with a NUL character in them. -/

namespace Verif
open Outcome

variable {R : FP}

/-- As called at oitable-demo.c:90, 416, 488. The characters which `fgets` stores and those which are left, if at most `n` are stored: it stops after a newline. -/
def fgetsLine : Nat → CStr → CStr × CStr
  | 0, s => ([], s)
  | _, [] => ([], [])
  | n + 1, c :: s =>
    if c = '\n' then (['\n'], s)
    else
      let (line, rest) := fgetsLine n s
      (c :: line, rest)

/-- oitable-demo.c:89-91, 415-417, 487-489: `fgets(filename, FLEN_FILENAME, stdin)` and
`filename[strlen(filename) - 1] = '\0'`. `filename` is the string in the array before, `none` if it has not been
initialised. At the end of the input `fgets` leaves the array as it is. `strlen` of memory which has not been initialised,
and writing before the start of the array, are undefined. The name, and what is left of the input. -/
def askName (filename : Option CStr) (stdin : CStr) : Outcome (CStr × CStr) :=
  if stdin = [] then
    match filename with
    | none => .ub
    | some [] => .ub
    | some s => .ok (s.dropLast, [])
  else
    let (line, rest) := fgetsLine (FLEN_FILENAME - 1) stdin
    .ok (line.dropLast, rest)

/-- oitable-demo.c:663-668 `main`. What the program leaves behind: how it ends, the lines which list tables, and the files. -/
structure DemoFinal (R : FP) where
  exit : Exit
  lines : List DemoLine
  files : Files R

/-- oitable-demo.c:471-660 `demo_read`, and the end of `main` (680). -/
def demoReadMain (u : Undef R) (fs : Files R) (stdin : CStr) : DemoFinal R :=
  match askName none stdin with
  | .ok (filename, _) =>
    match demo_read u (match fs filename with | some (.fits hdus) => some hdus | _ => none) with
    | .ok (lines, true) => ⟨.code EXIT_SUCCESS, lines, fs⟩
    | .ok (lines, false) => ⟨.code EXIT_FAILURE, lines, fs⟩
    | .abort => ⟨.abort, [], fs⟩
    | .ub => ⟨.ub, [], fs⟩
  | .abort => ⟨.abort, [], fs⟩
  | .ub => ⟨.ub, [], fs⟩

/-- `fits_create_file` (oitable-demo.c:420): the name of the file, and whether there is one already which is not to be
replaced, as in `writeFile`. -/
def createPath (fs : Files R) : CStr → CStr × Bool
  | '!' :: path => (path, false)
  | path => (path, (fs path).isSome)

/-- oitable-demo.c:676-681 `main`, with `demo_write` (69-458). `texts` says which characters are read from a file if it
is opened with `fopen`. `fscanf` on a file which could not be opened is undefined. The name of the output file is read
into the array in which the name of the text file is. If a table cannot be written the file is deleted. -/
def oitable_demo (N : Numerals R) (u : Undef R) (today : CStr) (texts : CStr → CStr) (fs : Files R) (stdin : CStr) :
    DemoFinal R :=
  match askName none stdin with
  | .ok (textname, stdin) =>
    if (fs textname).isNone then ⟨.ub, [], fs⟩
    else
      match scanDemo N u { input := texts textname } with
      | .ok (d, _) =>
        match demoHeader u.str u.str d with
        | .ok header =>
          match askName (some textname) stdin with
          | .ok (filename, stdin) =>
            let (path, there) := createPath fs filename
            match makeFile today there (demoCalls header d) with
            | .ok (some hdus, _) => demoReadMain u (fs.set path (some (.fits hdus))) stdin
            | .ok (none, _) => ⟨.code EXIT_FAILURE, [], if there then fs else fs.set path none⟩
            | .abort => ⟨.abort, [], fs.set path (some .other)⟩
            | .ub => ⟨.ub, [], fs.set path (some .other)⟩
          | .abort => ⟨.abort, [], fs⟩
          | .ub => ⟨.ub, [], fs⟩
        | .abort => ⟨.abort, [], fs⟩
        | .ub => ⟨.ub, [], fs⟩
      | .abort => ⟨.abort, [], fs⟩
      | .ub => ⟨.ub, [], fs⟩
  | .abort => ⟨.abort, [], fs⟩
  | .ub => ⟨.ub, [], fs⟩

end Verif

import Verif.Model.IO

/-!
# Several programs at one file

The callbacks of the web app run in threads, and nothing keeps two programs from using one data directory.  A file is
opened with mode 'w', which empties it, and each program writes its text from the beginning, in pieces, at its own
position.
-/

namespace BP

/-- What a program that is going to write the file does: it has not begun, it has read the file and knows what to write,
or it has opened the file and `pos` characters of its text have reached the file. (io.py:142-161, 201-219) -/
inductive Phase where
  | away
  | ready (out : Text)
  | opened (out : Text) (pos : ℕ)

/-- A file and the programs at it. (io.py:142-161, 201-219) -/
structure Shared (ι : Type) where
  file : Text
  phase : ι → Phase

/-- A step of a program: it reads the whole file, opens it for writing, or a piece of its text of at most `k` characters
reaches the file.  Simplification: reading is one step. (io.py:142-161, 201-219) -/
inductive Act (ι : Type) where
  | look (i : ι)
  | open (i : ι)
  | flush (i : ι) (k : ℕ)

/-- The program that makes the step. (io.py:142-161, 201-219) -/
def Act.who {ι : Type} : Act ι → ι
  | .look i => i
  | .open i => i
  | .flush i _ => i

/-- Writing a text at a position of a file; a gap before it is filled with zeros. (io.py:155-158, 218) -/
def overlay (file : Text) (pos : ℕ) (s : Text) : Text :=
  if s = [] then file
  else file.take pos ++ List.replicate (pos - file.length) '\x00' ++ s ++ file.drop (pos + s.length)

/-- One step.  `rewrite i` is the text that program `i` writes when it has read a content: the same for all contents in
write_parameter_text_file (io.py:155-158), `writePeriods` in write_periods_to_file (io.py:201-218). -/
def Shared.step {ι : Type} [DecidableEq ι] (rewrite : ι → Text → Text) (s : Shared ι) : Act ι → Shared ι
  | .look i => match s.phase i with
    | .away => ⟨s.file, Function.update s.phase i (.ready (rewrite i s.file))⟩
    | _ => s
  | .open i => match s.phase i with
    | .ready out => ⟨[], Function.update s.phase i (.opened out 0)⟩
    | _ => s
  | .flush i k => match s.phase i with
    | .opened out pos =>
      ⟨overlay s.file pos ((out.drop pos).take k),
        Function.update s.phase i (.opened out (pos + ((out.drop pos).take k).length))⟩
    | _ => s

/-- The file and the programs after a schedule, when none has begun before. (io.py:142-161, 201-219) -/
def together {ι : Type} [DecidableEq ι] (rewrite : ι → Text → Text) (file : Text) (schedule : List (Act ι)) : Shared ι :=
  schedule.foldl (Shared.step rewrite) ⟨file, fun _ => .away⟩

end BP

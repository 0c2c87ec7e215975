/- Names of the files of a run. -/
import Mathlib.Data.String.Basic

namespace CT

open Classical in
/-- A name in a directory, which may be given with or without its final slash; nothing is the current directory. -/
noncomputable def inDir (d f : String) : String := if d = "" then f else if ∃ e, d = e ++ "/" then d ++ f else d ++ "/" ++ f

/-- A file of a run: working directory, directory of the snapshots in it, name. -/
noncomputable def runFile (w s f : String) : String := inDir w (inDir s f)

end CT

/-
Model of `lecp_vg1_sat_table_loader` in `pdr/formats/voyager.py` 136-155 (Voyager 1 LECP at Saturn): `read_csv` with
`comment='V'`, from pandas 2 (C engine). Simplification: the file has no quotes (a comment does not begin between
quotes); lines end with LF or CRLF.
-/
import Verif.Model.HeadedText

namespace Verif.CommentText
open Verif.Py Verif.Ascii Verif.NamedText Verif.HeadedText
open Verif.LooseText hiding Failure

/-- a line without its comment; the line end remains -/
def uncomment (l : Str) : Str := if 'V' ∈ l then l.takeWhile (fun c => c ≠ 'V') ++ c!"\n" else l

/-- voyager.py 136-155 -/
def saturn (infer : List Str → Inferred) (missing : Str → Bool) (content : Str) (names : List Str) :
    Except Failure Frame :=
  headed infer missing ',' 0 ((Locate.fileLines content).map uncomment).flatten
    (names.filter (fun m => !contains m c!"PLACEHOLDER"))

end Verif.CommentText

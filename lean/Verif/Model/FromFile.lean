import Verif.Model.File
/-
Model of loading from a path (`/repo/ifc_rs/src/lib.rs:71-81`).  The file system is a parameter: what is under the path.
-/
namespace Verif

/-- What `fs::read` gives for a path: the bytes of the file, or an error (no such file, a directory, no permission). -/
inductive Disk where
  | unreadable
  | bytes (b : List UInt8)

/-- Outcome of `IFC::from_file`: the error of `fs::read_to_string`, or the outcome of `IFC::from_str`. -/
inductive Opened where
  | ioError
  | read (l : Load)

/-- `fs::read_to_string` (std): the text whose UTF-8 form the bytes are, or an error if they are none. -/
def readToString : Disk → Option Str
  | .unreadable => none
  | .bytes b => b.toByteArray.utf8Decode?.map Array.toList

/-- lib.rs:75-80 -/
def fromFile (d : Disk) : Opened :=
  match readToString d with
  | none => .ioError
  | some s => .read (fromStr s)

end Verif

import Verif.Model.DataMap
import Verif.Model.Header
/-
Model of the data section and of loading/saving a whole file (`/repo/ifc_rs/src/lib.rs`, `meta/datamap`,
`parser/dummy.rs`).
-/
namespace Verif

/-- parser/dummy.rs:16-27 -/
def pDummy : P Entity := (repeatTill anyChar (sp (lit (cs! ";")))).map .dummy

/-- `T::parse_any()` (parser/mod.rs:31-37) -/
def pKind (k : Kind) : P Entity := (Schema.row k).parse.map (Entity.known k)

/-- meta/datamap/deserialize.rs:23-34 without the surrounding blanks -/
def pEntity : P Entity := P.alt (P.altL (Schema.order.map pKind)) pDummy

/-- meta/datamap/deserialize.rs:35-36 -/
def pLine : P (Nat × Entity) :=
  sp (pId.bind fun i => (sp (lit (cs! "="))).bind fun _ => (sp pEntity).map fun e => (i, e))

/-- meta/datamap/deserialize.rs:37-40 -/
def pDataSection : P DataMap :=
  sp (P.preceded (lit (cs! "DATA;"))
    ((repeatTill pLine (sp (lit (cs! "ENDSEC;")))).map DataMap.ofEntries))

/-- meta/datamap/serialize.rs:5-16 -/
def showData (m : DataMap) : Str :=
  cs! "DATA;\n" ++ (m.flatMap fun ie => showId ie.1 ++ cs! "= " ++ ie.2.print ++ cs! "\n") ++ cs! "ENDSEC;\n"

/-- lib.rs:60-69 (the footer carries no information) -/
structure Ifc where
  header : Header
  data : DataMap

/-- lib.rs:83-93 -/
def pIfc : P Ifc :=
  pHeader.bind fun header => pDataSection.bind fun data => pFooter.map fun _ => ⟨header, data⟩

/-- lib.rs:131-135 -/
def showIfc (f : Ifc) : Str := showHeader f.header ++ cs! "\n" ++ showData f.data ++ cs! "\n" ++ showFooter

/-- Outcome of `IFC::from_str`. -/
inductive Load where
  | ok (f : Ifc)
  | parseError
  | verifyError
  | panic

/-- lib.rs:95-109; winnow's `Parser::parse` also demands the end of input -/
def fromStr (s : Str) : Load :=
  match pIfc s with
  | .panic => .panic
  | .back => .parseError
  | .cut => .parseError
  | .ok f r =>
    if r = [] then
      match verifyAll f.data with
      | .good => .ok f
      | .bad => .verifyError
      | .panic => .panic
    else .parseError

end Verif

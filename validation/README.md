# Comparison of the model with recorded behaviour of the code

The proofs are about the model, so the transcription was compared with what the repository records about the running code.
Nothing of this is used by a proof.

* `tests/snapshots/insta__archicad_results.snap` holds what the crate prints after loading `resources/AC20-FZK-Haus.ifc`.
  The model's reader and printer (`pHeader`, `pLine`, `Entity.print`, `showHeader`, `showFooter`) were compiled and run over
  that file line by line (44249 entities, 19172 of them of known types, 2.6 MB).  After the replacement of UUIDs the test
  does, the output is the snapshot, byte for byte.  `verifyEntity` is `.good` for every entity, as the test needs.
* Every entity line in the unit tests (89 lines, 76 keywords): the 85 lines tests print back unchanged are printed back
  unchanged; the two lines tests expect to be refused (`.NOTAVALIDROLE.`, dimension 4) are unknown to the model as well; the line
  of a commented-out test (`IfcLineIndex`) is unknown; the line of the two tests marked
  `#[ignore = "float representation doesn't match"]` is printed with another representation (`1.74532925199000E-2`).
* The six header texts of `meta/header/deserialize.rs` are read to the end, with equal results for the two texts that differ in a
  comment only and with the values of the inline snapshot for the file name `$`.
* `resources/wall-standard-case.ifc` loads as a whole (`fromStr` is `.ok`, 45 entities).

The program, to be compiled outside of this directory (`lean -c`, `leanc`):

```lean
import Verif.Model.File
import Std.Data.HashMap
open Verif
def main (args : List String) : IO Unit := do
  let s ← IO.FS.readFile args[0]!
  let h ← IO.FS.Handle.mk args[1]! .write
  let lines := (s.splitOn "\n")
  let mut hdr := ""
  let mut inData := false
  let mut es : Array (Nat × Entity) := #[]
  for l in lines do
    if !inData then
      if l.trimAscii.toString == "DATA;" then
        inData := true
        match pHeader hdr.toList with
        | .ok hd r => h.putStr (String.ofList (showHeader hd)); h.putStr "\nDATA;\n"; IO.println s!"rest {r.length}"
        | _ => IO.println "header fails"
      else hdr := hdr ++ l ++ "\n"
    else if l.startsWith "#" then
      match pLine (l ++ "\n#").toList with
      | .ok ie r =>
        if r.length ≠ 1 then IO.println s!"rest {r.length}: {l}"
        es := es.push ie
      | _ => IO.println s!"fails: {l}"
  let m : Std.HashMap Nat Entity := es.foldl (fun m ie => m.insert ie.1 ie.2) {}
  let keys := (m.toList.map (·.1)).toArray.qsort (· < ·)
  let mut known := 0
  for k in keys do
    match m[k]? with
    | some e =>
      h.putStr (String.ofList (showId k ++ "= ".toList ++ e.print ++ "\n".toList))
      let sub : DataMap := ((e.checks.map (·.1)).eraseDups.filterMap fun n => m[n]?.map fun e => (n, e))
      match e with
      | .known .. =>
        known := known + 1
        match verifyEntity (DataMap.ofEntries sub) e with
        | .good => pure ()
        | .bad => IO.println s!"bad {k}"
        | .panic => IO.println s!"panic {k}"
      | _ => pure ()
    | none => pure ()
  h.putStr "ENDSEC;\n\n"
  h.putStr (String.ofList showFooter)
  IO.println s!"{keys.size} entities, {known} known"
```

import Verif.Model.Print

/-!
# The command line program (/repo/spectro_bin/src/main.rs)
-/

namespace Verif

/-- The flags of `Args`, /repo/spectro_bin/src/main.rs:8-40. -/
structure Args where
  json : Bool
  finish : Bool
  toGauss : Bool
  verbose : Bool
  dumpFcs : Bool

/-- What the program computes for a file on the paths it can take: the text of `to_gauss`, the force constant dump, the
listing of states, the report and the JSON text. `none` stands for a panic or an error. -/
structure Work where
  /-- the listing of `to_gauss`, /repo/spectro/src/run.rs:60-104 -/
  gauss : Option (List Text)
  /-- the dump of `dump_fcs`, /repo/spectro/src/run.rs:106-174 -/
  dump : List Text
  /-- `print_vib_states` for a run (`false`) and a finished run (`true`), /repo/spectro/src/utils.rs:339-352 -/
  states : Bool → Option (List Text)
  /-- `write_output` for a run (`false`) and a finished run (`true`), /repo/spectro/src/lib.rs:153-173 -/
  report : Bool → Option (List Text)
  /-- the JSON text for a run (`false`) and a finished run (`true`) -/
  json : Bool → List Text

/-- `main`, /repo/spectro_bin/src/main.rs:42-82, on a file with a quartic force field: the lines written to standard
output when all goes well. Combining `--verbose` and `--json` is rejected (29). Only `run` looks at `dump_fcs`
(/repo/spectro/src/run.rs:219-229), only `finish` at `verbose` (/repo/spectro/src/run.rs:307-309). Simplified: the output
written before a panic is left out, and the optional polyad output too. -/
def mainOut (a : Args) (w : Work) : Option (List Text) :=
  if a.verbose && a.json then none
  else if a.toGauss then w.gauss
  else do
    let dump := if !a.finish && a.dumpFcs then w.dump else []
    let states ← if a.verbose then w.states a.finish else some []
    let last ← if a.json then some (w.json a.finish) else w.report a.finish
    return dump ++ states ++ last

end Verif

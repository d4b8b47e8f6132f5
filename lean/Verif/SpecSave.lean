import Verif.SpecCli
import Verif.SpecEval
import Verif.SpecText
/-!
# Specifications for evaluation with error report (`SaveEval`) and for runs of the command line program
-/

namespace Fuel.Spec

variable [World]

/-- Evaluating a source text in a new interpreter with error report ends with outcome `o`; `writer`: an output is given; `stack`: the text of
the call stack. -/
def Saves (stack : Str) (writer : Bool) (code module : Str) (verbose : Bool) (st : St) (o : Out (Option Variant)) : Prop :=
  Ends o ∧ ∃ k, saveEval k stack writer code module verbose false false st = o

/-- The variant is the error with the given message. -/
def IsError (v : Variant) (msg : Str) : Prop := v.type = .error ∧ ∃ i, v.value = .mk i (.str msg)

/-- The lines are written once to the console, and a second time to the given output (which is the console too). -/
def lineTwice (writer : Bool) (l : Str) : Str := if writer then l ++ c!"\n" ++ l ++ c!"\n" else l ++ c!"\n"

/-- The report on an error. -/
def errorReport (stack : Str) (writer verbose : Bool) (msg : Str) (line start stop : Int) (module : Str) : Str :=
  lineTwice writer (c!"\nError executing script.\n\n" ++ msg ++ c!" --> line=" ++ intStr line ++ c!" start=" ++ intStr start ++ c!" stop=" ++
    intStr stop ++ c!" module=" ++ module) ++
  lineTwice writer (c!"\nCallstack:\n" ++ stack) ++
  if verbose then c!"\nNative callstack:\n" ++ lineTwice writer c!"Exception in eval(): exc->ToString() \ndata=exc.Data" else []

/-- Text that can be inserted into the report. -/
def Insertable (s : Str) : Prop := BraceFree s ∧ s ≠ c!"##<NULL>##"

/-- The text of the file; a missing file counts as empty. -/
def fileText (st : St) (f : Str) : Str := ((st.files.find? fun e => e.1 = f).map Prod.snd).getD []

/-- The script files run one after the other, each in a new interpreter; errors do not stop the following ones. -/
inductive FilesRun (stack : Str) (verbose : Bool) : List Str → St → St → Prop
  | nil {st} : FilesRun stack verbose [] st st
  | cons {f fs st v st1 st2} : Saves stack true (fileText st f) f verbose st (.ok v st1) → FilesRun stack verbose fs st1 st2 →
      FilesRun stack verbose (f :: fs) st st2

end Fuel.Spec

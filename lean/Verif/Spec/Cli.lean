import Verif.Model.Cli
import Verif.Spec.Project

/-!
# What the program does to the outside

Definitions used in theorem statements about the command line program.
-/

namespace Angonoka.Cli

variable {K : Type}

/-- The effect shows up on the standard output. -/
def Effect.OnStdout : Effect K → Prop
  | .stdout _ => True
  | .progress _ => True
  | _ => False

/-- The effect writes the output file. -/
def Effect.IsFile : Effect K → Prop
  | .file _ _ => True
  | .truncated _ => True
  | _ => False

/-- The configuration cannot be loaded for a reason that is the user's (the file cannot be read, is not YAML, or is not valid),
and `texts` says so. -/
inductive Complaint (m : Machine K) (o : Options K) : List String → Prop
  | badFile (h : m.source = .badFile) :
      Complaint m o ["Error reading tasks and agents from file \"" ++ o.filename ++ "\".\n"]
  | syntaxError {line column message} (h : m.source = .syntaxError line column message) :
      Complaint m o ["Error parsing YAML: ", "Error at line " ++ toString (line + 1) ++ ", column "
        ++ toString (column + 1) ++ ": " ++ message ++ "\n"]
  | invalid {root e} (h : m.source = .doc root) (hl : load m.readFloat root = .throws e)
      (he : e.isValidationError = true) : Complaint m o ["Validation error: " ++ what e ++ "\n"]

/-- Unless the program is quiet: the log of the optimization can be opened if it is asked for, and the progress bar, if there is one, finds a
terminal that does not have 5, 6, 7 or 8 columns. -/
def CanReport (m : Machine K) (o : Options K) : Prop := o.quiet = false →
  (o.logOptimization = true → m.logWritable = true) ∧ (o.color = true → m.columns < 5 ∨ 9 ≤ m.columns)

/-- The files that the program is asked to write can be written, and the progress can be displayed. -/
def CanWrite (m : Machine K) (o : Options K) : Prop := (m.writable = true ∧ m.room = true) ∧ CanReport m o

/-- The beginning of the message about an output file that cannot be opened (`cli/schedule.cpp:207`, `cli/cli.cpp:176`) -/
def failureText : Command → String
  | .schedule => "Error saving the schedule:\n"
  | .predict => "Error saving the prediction results:\n"

/-- The last message (`cli/schedule.cpp:211-215`, `cli/cli.cpp:180-184`) -/
def successText (o : Options K) : Command → String
  | .schedule => "Saving the optimized schedule to \"" ++ o.output ++ "\".\n"
  | .predict => "Time estimation written to \"" ++ o.output ++ "\"\n"

end Angonoka.Cli

namespace Angonoka

/-- The project takes at least `a` seconds and less than `b`: every agent needs at least `a` seconds for some task, and every agent
could do all tasks one after the other in less than `b` seconds. -/
structure Project.TakesBetween (p : Project) (a b : ℚ) : Prop where
  longer : ∃ t ∈ p.tasks, ∀ x ∈ p.agents, ∀ q : ℚ, x.perfMax = .fin q → a * q ≤ t.meanDuration
  shorter : ∀ x ∈ p.agents, ∀ q : ℚ, x.perfMin = .fin q →
    (((p.tasks.map Task.meanDuration).sum : Int) : ℚ) < b * q

/-- The project takes at least a second and less than 2³¹ seconds (68 years). -/
abbrev Project.Moderate (p : Project) : Prop := p.TakesBetween 1 (2 ^ 31)

end Angonoka
